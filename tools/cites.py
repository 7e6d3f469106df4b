#!/usr/bin/env python3
"""Add citations of /repo to the comments of small definitions of the model that have none: functions of std and of
libraries, literals, accessors. Run after the generators. The places are listed in cites.txt:
definition|kind|place, with kind m (modelled there), u (used there), c (the library cfb, used there), d (derived by serde,
for instance there), s (std or IEEE-754, without a place)."""
import glob,os,re,sys
HERE=os.path.dirname(os.path.abspath(__file__))
R='/repo/src/'
def path(f): return (R+f[1:]) if f.startswith('/') else (R+'vpx/'+f)
def fnrange(p,name):
    L=open(p).read().split('\n')
    for i,l in enumerate(L):
        m=re.match(r'(\s*)(?:pub(?:\([a-z]+\))? )?(?:async )?fn (%s)\b'%re.escape(name),l)
        if m and not l.rstrip().endswith(';'):
            for j in range(i,len(L)):
                if L[j].startswith(m.group(1)+'}'): return (i+1,j+1)
    return None
def block(p,i):
    L=open(p).read().split('\n')
    if re.search(r'(struct|enum|impl|fn)\b',L[i]) and L[i].rstrip().endswith('{'):
        ind=re.match(r'\s*',L[i]).group(0)
        for j in range(i,len(L)):
            if L[j].startswith(ind+'}'): return (i+1,j+1)
    return (i+1,i+1)
def resolve(spec):
    for alt in spec.split('||'):
        alt=alt.strip()
        m=re.match(r'(\S+?\.rs)#(\w+)$',alt)
        if m:
            p=path(m.group(1))
            if os.path.exists(p):
                r=fnrange(p,m.group(2))
                if r: return p,'%d-%d'%r if r[0]!=r[1] else str(r[0])
            continue
        m=re.match(r'(\S+?\.rs):([\d,\-]+)$',alt)
        if m:
            p=path(m.group(1))
            if os.path.exists(p): return p,m.group(2)
            continue
        m=re.match(r'(\S+?\.rs)/(.*)/$',alt)
        if m:
            p=path(m.group(1))
            if os.path.exists(p):
                L=open(p).read().split('\n')
                t=[k for k,l in enumerate(L) if 'cfg(test)' in l]
                end=t[-1] if t else len(L)
                for k,l in enumerate(L[:end]):
                    if re.search(m.group(2),l) and not l.strip().startswith('//') and not l.startswith('use '):
                        a,b=block(p,k)
                        return p,('%d-%d'%(a,b) if a!=b else str(a))
            continue
    return None
MODEL='/verif/lean/Verif/Model/'
CITED=r'\.rs|same lines|ibid|[0-9]+-[0-9]+|:\d+|no lines of /repo'
maps={};cur=None
for l in open(os.path.join(HERE,'cites.txt')):
    l=l.rstrip('\n')
    if not l: continue
    if '|' not in l: cur=l; maps.setdefault(cur,{}); continue
    n,k,s=l.split('|',2); maps[cur][n]=(k,s)
def text(k,s):
    if k=='s': return ' (std, IEEE-754; no lines of /repo)'
    r=resolve(s)
    if not r: return None
    c='%s:%s'%r
    return {'m':', '+c,'u':' (used in %s)'%c,'c':' (library `cfb`; used in %s)'%c,'d':' (derived by `serde`, for instance %s)'%c}[k]
# literals
RS=sorted(glob.glob('/repo/src/vpx/mesh/**/*.rs',recursive=True)+glob.glob('/repo/src/vpx/math/*.rs')+glob.glob('/repo/src/vpx/export/*.rs'))
RS=[p for p in RS if not re.search(r'_mesh\.rs|mesh_validation|_data|_base|_table',p)]
def literal(doc,f):
    m=re.match(r'/-- (-?)([0-9][0-9.e\-]*)',doc)
    c=re.match(r'/-- `(f32::[A-Za-z_:]+)`',doc)
    if m: pat=(re.escape(m.group(1)) if m.group(1) else '')+r'(?<![\w.])'+re.escape(m.group(2))+r'(?![0-9a-zA-Z.])'
    elif c: pat=re.escape(c.group(1).split('::')[-1])+r'\b'
    else: return None
    first={'PlungerMesh.lean':'plungers/mod.rs','TableMesh.lean':'mod.rs','FlipperMesh.lean':'flippers'}.get(f,'')
    for p in sorted(RS,key=lambda p:0 if first and p.endswith(first) else 1):
        for k,l in enumerate(open(p).read().split('\n')):
            if 'cfg(test)' in l: break
            if re.search(pat,l.split('//')[0]): return ' (for instance in %s:%d)'%(p,k+1)
ITEM=lambda n: re.sub(r'(?<!^)(?=[A-Z])','_',n).lower()
def itemfile(n):
    for c in (n.lower(),ITEM(n),{'LightSequencer':'lightsequencer','DragPoint':'dragpoint'}.get(n,'')):
        if os.path.exists('/repo/src/vpx/gameitem/%s.rs'%c): return 'gameitem/%s.rs'%c
NODOC={'FontState.init':'the state before the first record','JpegState.init':'the state before the first record','MemFs.empty':'a new file system','decimal':'`u32::to_string`','custNames':'the names in the list of custom info tags','decodeLatin1':'one character for every byte','wvFail':'an error','TableBounds.centerY':'the middle from top to bottom','Entry':'a storage or a stream with its content','ImageDataJson.empty':'no values','WOp.unsizedR':'the same without a size','Corner':'the numbers of a corner of a face','F64.mag':'the same for `f64`'}
bad=[]
for p in sorted(glob.glob(MODEL+'**/*.lean',recursive=True)):
    if 'MeshData' in p: continue
    f=p[len(MODEL):]
    s=open(p).read().split('\n'); out=[]; changed=False
    for i,l in enumerate(s):
        m=re.match(r'(?:@\[[^\]]*\]\s*)?(?:private |protected |noncomputable |partial )*(def|inductive|structure|abbrev|class|instance)\b\s*(\S*)',l)
        if m:
            j=len(out)-1
            while j>=0 and re.match(r'@\[|set_option|attribute|omit|variable',out[j]): j-=1
            has=j>=0 and out[j].rstrip().endswith('-/'); t=''
            if has:
                k=j
                while k>=0 and not re.search(r'/--|/-!|/-',out[k]): k-=1
                t=' '.join(out[k:j+1])
                if not out[k].startswith('/--'): has=False; t=''
            if not re.search(CITED,t):
                n=m.group(2); mp=maps.get(f,{}); c=None
                if m.group(1)=='instance':
                    key=[q for q in mp if q.startswith('instance@') and (q[9:] in l or q[9:]==f[:-5])]
                    if key: c=text(*mp[key[0]])
                elif n in mp: c=text(*mp[n])
                elif f.startswith('Items/') and n.endswith('.timerL'): c=text('m','%s/timer: TimerData/'%itemfile(n.split('.')[0])) or text('m','%s/timer/'%itemfile(n.split('.')[0]))
                elif f.startswith('Items/') and n.endswith('.sharedL'): c=text('m','%s/is_locked: bool/'%itemfile(n.split('.')[0]))
                elif f=='ItemJson.lean':
                    q=n.split('.')[0] if '.' in n else n[1:]
                    c=text('m','%s/impl Serialize for %s|struct %sJson/'%(itemfile(q),q,q))
                if c is None: c=literal(t,f)
                if c is None and '*' in mp: c=text(*mp['*'])
                if c is None: bad.append((f,n,t[:80]))
                else:
                    changed=True
                    if has:
                        e=out[j].rstrip(); assert e.endswith('-/')
                        e=e[:-2].rstrip()
                        if e.endswith('.') and c.startswith(', '): e=e+' '+c[2:]+'.'
                        else: e=e+c
                        if len(e)+3>126:
                            cut=e.rfind(' ',0,120)
                            out[j]=e[:cut]; out.insert(j+1,e[cut+1:]+' -/')
                        else: out[j]=e+' -/'
                    else:
                        d=NODOC.get(n)
                        if not d:
                            if m.group(1)=='instance': d='decidable'
                            elif re.match(r'j[A-Z]\w*$',n): d='`Serialize` and `Deserialize` of `%s`'%n[1:]
                            elif n.endswith('.json') or n.endswith('.toJ'): d='its JSON value'
                            elif n.endswith('.ofJ'): d='from its JSON value'
                            elif n.endswith('jsonFields'): d='the fields'
                            else: d='`%s`'%n.split('.')[-1]
                        at=len(out)
                        while at>0 and re.match(r'@\[|set_option',out[at-1]): at-=1
                        out.insert(at,'/-- %s%s -/'%(d,c))
        out.append(l)
    if changed and '-n' not in sys.argv: open(p,'w').write('\n'.join(out))
for b in bad: print(b)
print(len(bad))
