#!/usr/bin/env python3
"""Generate Model/GameItem.lean from /repo/src/vpx/gameitem.rs: the enumeration of all item kinds,
the type numbers, reading and writing by type number, and the accessors."""
import os, re, sys
sys.path.insert(0, os.path.dirname(__file__))
from items_ir import all_items
OUT = os.path.join(os.path.dirname(os.path.abspath(__file__)), '../lean/Verif/Model/GameItem.lean')
PATH = '/repo/src/vpx/gameitem.rs'
L = open(PATH).read().split('\n')
ITS = {i.name: i for i in all_items()}
SHARED = {'is_locked', 'editor_layer', 'editor_layer_name', 'editor_layer_visibility', 'part_group_name'}

def fn(name):
    """(body, cite) of a function"""
    for i, l in enumerate(L):
        if re.match(rf'\s*(pub(\(crate\))? )?fn {name}\b.*\{{$', l):
            ind = len(l) - len(l.lstrip())
            j = i
            while L[j] != ' ' * ind + '}':
                j += 1
            return '\n'.join(L[i:j + 1]), f'/repo/src/vpx/gameitem.rs:{i+1}-{j+1}'
    raise Exception(name)

def ctor(n): return n[0].lower() + n[1:]

variants = []
i = L.index('pub enum GameItemEnum {')
j = i
while L[j] != '}':
    m = re.match(r'\s+(\w+)\((.*)\),', L[j])
    if m: variants.append(m.group(1))
    j += 1
enum_cite = f'/repo/src/vpx/gameitem.rs:{i+1}-{j+1}'
items = [v for v in variants if v != 'Generic']
assert set(items) == set(ITS) - {'DragPoint'}, set(items) ^ set(ITS)
consts = dict(re.findall(r'^const (ITEM_TYPE_\w+): u32 = (\d+);', '\n'.join(L), re.M))

def fld(v, f):
    it = ITS[v]
    if f in SHARED and it.shared:
        return f'x.shared.{f}'
    assert f in it.rust_fields, (v, f)
    return f'x.{f}'

def setf(v, f, val):
    it = ITS[v]
    if f in SHARED and it.shared:
        return f'{{ x with shared := {{ x.shared with {f} := {val} }} }}'
    assert f in it.rust_fields, (v, f)
    return f'{{ x with {f} := {val} }}'

def arms(body):
    """[(variants, var, expression text)] of the match on self / gameitem"""
    out = []
    toks = list(re.finditer(r'GameItemEnum::(\w+)\(([^)]*)\)\s*(=>|\|)', body))
    pend = []
    for k, m in enumerate(toks):
        pend.append((m.group(1), m.group(2)))
        if m.group(3) == '|':
            continue
        end = toks[k + 1].start() if k + 1 < len(toks) else len(body)
        e = body[m.end():end]
        e = re.sub(r'//.*', '', e)
        out.append((pend, ' '.join(e.split()).rstrip(',| ')))
        pend = []
    return out

o = []
imps = ''.join(f'import Verif.Model.Items.{v}\n' for v in items)
o.append(imps + '''/-
Game items of any kind, /repo/src/vpx/gameitem.rs and /repo/src/vpx/gameitem/generic.rs.
Generated by tools/gen_gameitem.py from the source; each definition cites what it models.
-/
namespace Vpin

/-- `struct Generic`, /repo/src/vpx/gameitem/generic.rs:9-13; record names as tags -/
structure Generic where
  name : Str
  fields : List (Tag × Bytes)
  deriving DecidableEq, Repr

/-- start of `Generic::biff_read`, /repo/src/vpx/gameitem/generic.rs:55-56 -/
def Generic.init : Generic := ⟨[], []⟩

/-- match arms of `Generic::biff_read`, /repo/src/vpx/gameitem/generic.rs:65-72 -/
def Generic.arms : Handlers Generic :=
  [(tag!"NAME", fld getWide fun v s => { s with name := v }),
   (anyTag, fun s => do
     let t ← getTag
     fld getRecordData (fun v s => { s with fields := s.fields ++ [(t, v)] }) s)]
''')
o.append(f'/-- `enum GameItemEnum`, {enum_cite} -/\ninductive GameItemEnum where')
for v in items:
    o.append(f'  | {ctor(v)} (x : {v})')
o.append('  | generic (itemType : UInt32) (x : Generic)\n  deriving DecidableEq, Repr\n')

# read
body, cite = fn('read')
o.append(f'''/-- the `match item_type` of `read`, {cite} -/
def GameItemEnum.readKind (itemType : UInt32) : R GameItemEnum :=''')
rd = []
for m in re.finditer(r'(ITEM_TYPE_\w+) =>\s*(?:\{\s*)?(panic!|GameItemEnum::(\w+)\((\w+)::(\w+)::biff_read)', body):
    n = consts[m.group(1)]
    if m.group(2) == 'panic!':
        rd.append((n, 'R.panic'))
    else:
        assert m.group(5) == m.group(3) or True
        rd.append((n, f'GameItemEnum.{ctor(m.group(3))} <$> readWith {m.group(5)}.arms {m.group(5)}.init'))
first = True
for n, e in rd:
    o.append(f'  {"if" if first else "else if"} itemType = {n} then {e}')
    first = False
o.append('  else GameItemEnum.generic itemType <$> readWith Generic.arms Generic.init\n')
o.append(f'''/-- `read(input)`, {cite} -/
def GameItemEnum.read (input : Bytes) : Res GameItemEnum :=
  match (getU32N >>= GameItemEnum.readKind) (Rd.new input) with
  | .ok (v, _) => .ok v
  | .error e => .error e
''')
# write
body, cite = fn('write')
b2, cite2 = fn('write_with_type')
o.append(f'''/-- `write_with_type`, {cite2} -/
def writeWithType (itemType : UInt32) (ops : List WOp) : Res Bytes :=
  match runOps (({{}} : Wr).write (le32 itemType)) ops with
  | .error e => .error e
  | .ok w =>
    match w.close true with
    | .error e => .error e
    | .ok w => .ok w.data
''')
o.append(f'/-- `write`, {cite}; other kinds (`Generic`) are not implemented and panic -/\ndef GameItemEnum.write : GameItemEnum → Res Bytes')
seen = []
for m in re.finditer(r'(?<!// )GameItemEnum::(\w+)\(\w+\) =>\s*(?:\{\s*)?write_with_type\((ITEM_TYPE_\w+), (\w+)\)', body):
    o.append(f'  | .{ctor(m.group(1))} x => writeWithType {consts[m.group(2)]} x.ops')
    seen.append(m.group(1))
rest = [v for v in variants if v not in seen]
assert rest == ['Generic']
o.append('  | .generic _ _ => .error .panic\n')

def simple(name, lname, ty, tr):
    body, cite = fn(name)
    o.append(f'/-- `{name}`, {cite} -/\ndef GameItemEnum.{lname} : GameItemEnum → {ty}')
    seen = []
    for vs, e in arms(body):
        for v, var in vs:
            seen.append(v)
            if v == 'Generic':
                o.append(f'  | .generic t x => {tr(v, var, e)}')
            else:
                o.append(f'  | .{ctor(v)} x => {tr(v, var, e)}')
    assert sorted(seen) == sorted(variants), (name, set(variants) - set(seen))
    o.append('')

def t_get(v, var, e):
    e = re.sub(r'[{}]', ' ', e).strip().rstrip(' }),')
    if e.startswith('Some('):
        e2 = e[5:].strip()
        if '||' in e2:
            a, b = [t.strip().split('.')[1] for t in e2.split('||')]
            return f'some ({fld(v, a)} || {fld(v, b)})'
        m = re.match(r'\w+\.(\w+)(\()?$', e2)
        return f'some {fld(v, m.group(1))}'
    if e in ('None', '&None'):
        return 'none'
    m = re.match(r'&?\w+\.(\w+)(\(\)?|\.as_deref\(\)?)?,?$', e)
    if not m: raise Exception((v, e))
    if v == 'Generic':
        return f'x.{m.group(1)}'
    return fld(v, m.group(1))

for n, t in [('editor_layer_visibility', 'Option Bool'), ('editor_layer_name', 'Option Str'), ('editor_layer', 'Option UInt32'), ('is_locked', 'Option Bool'), ('name', 'Str'), ('part_group_name', 'Option Str'), ('is_visible', 'Option Bool')]:
    simple(n, n, t, t_get)

def t_set(v, var, e):
    if v == 'Generic':
        return 'fun _ => .generic t x'
    e = e.strip()
    if re.fullmatch(r'\{\s*\}', e):
        return f'fun _ => .{ctor(v)} x'
    m = re.match(r'\{ if let Some\(locked\) = locked \{ \w+\.(\w+) = locked; \} \}', e)
    if m:
        f = m.group(1)
        return f'fun o => .{ctor(v)} (match o with | some v => {setf(v, f, "v")} | none => x)'
    m = re.match(r'(?:\{ )?\w+\.(\w+) = (\w+);?(?: \})?$', e)
    if not m: raise Exception((v, e))
    return f'fun o => .{ctor(v)} {setf(v, m.group(1), "o")}'
for n, t in [('set_locked', 'Option Bool'), ('set_editor_layer', 'Option UInt32'), ('set_editor_layer_name', 'Option Str'), ('set_editor_layer_visibility', 'Option Bool')]:
    simple(n, n, f'{t} → GameItemEnum', t_set)

def t_tn(v, var, e):
    m = re.match(r'"(\w+)"\.to_string\(\)', e)
    if m: return f'"{m.group(1)}".toList'
    assert 'Generic_' in e
    return '"Generic_".toList ++ (toString t.toNat).toList'
simple('type_name', 'type_name', 'Str', t_tn)

body, cite = fn('type_id')
o.append(f'/-- `type_id`, {cite}; an unknown name panics -/\ndef GameItemEnum.type_id (n : Str) : Res UInt32 :=')
k = 'if'
for s, c in re.findall(r'"(\w+)" => (ITEM_TYPE_\w+)', body):
    o.append(f'  {k} n = "{s}".toList then .ok {consts[c]}')
    k = 'else if'
o.append('  else .error .panic\n')

o.append('''/-- `push_nonempty`, /repo/src/vpx/gameitem.rs:566-570 -/
def pushNonempty (s : Str) : List Str := if s.isEmpty then [] else [s]
/-- `push_opt`, /repo/src/vpx/gameitem.rs:571-577 -/
def pushOpt : Option Str → List Str
  | some v => if v.isEmpty then [] else [v]
  | none => []
''')
def t_push(v, var, e):
    ps = re.findall(r'push_(nonempty|opt)\(&mut out, &\w+\.(\w+)\)', e)
    if not ps: return '[]'
    return ' ++ '.join(f'{"pushNonempty" if k == "nonempty" else "pushOpt"} {fld(v, f)}' for k, f in ps)
for n in ('images', 'materials'):
    simple(n, n, 'List Str', t_push)
body, cite = fn('physics_material')
o.append(f'/-- `physics_material`, {cite} -/\ndef GameItemEnum.physics_material (g : GameItemEnum) : Option Str :=\n  let s : Option Str := match g with')
for v, f in re.findall(r'GameItemEnum::(\w+)\(\w+\) => Some\(&\w+\.(\w+)\)', body):
    o.append(f'    | .{ctor(v)} x => {fld(v, f)}')
o.append('    | _ => none\n  s.filter fun v => !v.isEmpty\n')

body, cite = fn('validate_part_group_order')
o.append(f'''/-- the warning text, /repo/src/vpx/gameitem.rs:751-757 -/
def partGroupWarning (index : Nat) (item : GameItemEnum) (group : Str) : Str :=
  "GameItem[".toList ++ (toString index).toList ++ "] '".toList ++ item.name ++ "' (".toList ++
    item.type_name ++ ") references part_group '".toList ++ group ++
    "' which has not been defined yet".toList

/-- the loop of `validate_part_group_order`, {cite}: `defined` is the set of part group names met so
far (as a list) -/
def partGroupLoop (index : Nat) (defined : List Str) : List GameItemEnum → List Str
  | [] => []
  | item :: rest =>
    let defined := match item with
      | .partGroup pg => pg.name :: defined
      | _ => defined
    let warning := match item.part_group_name with
      | some g => if g ∈ defined then [] else [partGroupWarning index item g]
      | none => []
    warning ++ partGroupLoop (index + 1) defined rest

/-- `validate_part_group_order`, {cite} -/
def validatePartGroupOrder (items : List GameItemEnum) : List Str := partGroupLoop 0 [] items

end Vpin''')
txt = '\n'.join(o) + '\n'
res = []
for l in txt.split('\n'):
    m = re.match(r'  \| \.(\w+) x => (.*)', l)
    if m and not re.search(r'\bx\b', m.group(2)):
        l = f'  | .{m.group(1)} _ => {m.group(2)}'
    m = re.match(r'  \| \.generic t x => (.*)', l)
    if m:
        l = '  | .generic %s %s => %s' % ('t' if re.search(r'\bt\b', m.group(1)) else '_', 'x' if re.search(r'\bx\b', m.group(1)) else '_', m.group(1))
    res.append(l)
open(OUT, 'w').write('\n'.join(res))

# ---- specification ----
SP = os.path.join(os.path.dirname(OUT), '../Spec/GameItem.lean')
o = ['''import Verif.Model.GameItem
import Verif.Spec.Items
import Verif.Spec.Reach
/-
Kinds of game items and their numbers in the file, and which items the file format can hold.
Generated by tools/gen_gameitem.py; the numbers are those of the list in the comment
/repo/src/vpx/gameitem.rs:763-790.
-/
namespace Vpin

/-- the kinds of game items a table file can contain -/
inductive Kind where''']
NUM = dict(Wall=0, Flipper=1, Timer=2, Plunger=3, TextBox=4, Bumper=5, Trigger=6, Light=7, Kicker=8, Decal=9, Gate=10, Spinner=11, Ramp=12, Reel=17, LightSequencer=18, Primitive=19, Flasher=20, Rubber=21, HitTarget=22, Ball=23, PartGroup=24)
assert list(NUM) == items
for v in items:
    o.append(f'  | {ctor(v)}')
o.append('  deriving DecidableEq, Repr\n')
o.append('/-- the number of each kind -/\ndef Kind.number : Kind → UInt32')
for v in items:
    o.append(f'  | .{ctor(v)} => {NUM[v]}')
o.append('\n/-- the name of each kind -/\ndef Kind.label : Kind → String')
for v in items:
    o.append(f'  | .{ctor(v)} => "{v}"')
o.append('\n/-- the kind of an item; none for one of unknown kind -/\ndef GameItemEnum.kind : GameItemEnum → Option Kind')
for v in items:
    o.append(f'  | .{ctor(v)} _ => some .{ctor(v)}')
o.append('  | .generic _ _ => none\n')
o.append('/-- the item is of a known kind and the file format can hold its fields -/\ndef GameItemEnum.WF : GameItemEnum → Prop')
for v in items:
    o.append(f'  | .{ctor(v)} x => x.WF')
o.append('  | .generic _ _ => False\n')
o.append('/-- the record names the reader of each kind knows (as tags) -/\ndef Kind.tags : Kind → List Tag')
for v in items:
    o.append(f'  | .{ctor(v)} => {v}.arms.map (·.1)')
o.append('\n/-- reading `pre ++ post` as the records of an item of this kind, the reader gets to a record\nboundary between the two -/\ndef Kind.Boundary : Kind → Bytes → Bytes → Prop')
for v in items:
    o.append(f'  | .{ctor(v)} => Vpin.Boundary {v}.arms {v}.init')
o.append('\nend Vpin\n')
open(SP, 'w').write('\n'.join(o))

# ---- lemmas ----
LP = os.path.join(os.path.dirname(OUT), '../Lemmas/GameItem.lean')
o = [''.join(f'import Verif.Lemmas.Items.{v}\n' for v in items) + '''import Verif.Spec.GameItem
import Verif.Lemmas.ItemWrite
/-!
Game items of any kind. Generated by tools/gen_gameitem.py.
-/
namespace Vpin
''']
for v in items:
    o.append(f'theorem readKind_{ctor(v)} : GameItemEnum.readKind {NUM[v]} = GameItemEnum.{ctor(v)} <$> readWith {v}.arms {v}.init := rfl')
o.append('''
theorem gameitem_roundtrip (g : GameItemEnum) (h : g.WF) :
    ∃ bs, g.write = .ok bs ∧ GameItemEnum.read bs = .ok g := by
  cases g with''')
for v in items:
    o.append(f'  | {ctor(v)} x => exact ({v}.reads h).typed readKind_{ctor(v)}')
o.append('  | generic _ _ => exact h.elim\n')
o.append('''/-- what the reader guarantees -/
def GameItemEnum.RInv : GameItemEnum → Prop''')
for v in items:
    o.append(f'  | .{ctor(v)} x => x.{"RInv" if v == "Primitive" else "WF"}')
o.append('  | .generic _ _ => True\n')
o.append('''theorem readKind_inv (t : UInt32) : GP (GameItemEnum.readKind t) GameItemEnum.RInv := by
  intro r g r' hb h
  unfold GameItemEnum.readKind at h''')
for n, e in rd:
    m = re.match(r'GameItemEnum\.(\w+) <\$> readWith (\w+)\.arms', e)
    o.append('  rcases R.ite_inv h with ⟨ht, h⟩ | ⟨_, h⟩')
    if m:
        o.append(f'''  · obtain ⟨v, r1, h1, rfl⟩ := R.map_inv h
    exact readWith_gp {m.group(2)}.arms_inv {m.group(2)}.init_wf r v r1 hb h1''')
    else:
        o.append('  · cases h')
o.append('''  · obtain ⟨v, _, _, rfl⟩ := R.map_inv h
    trivial
''')
o.append('''theorem read_inv {bs : Bytes} {g : GameItemEnum} (h : GameItemEnum.read bs = .ok g) : g.RInv := by
  unfold GameItemEnum.read at h
  split at h
  · next v r' h' =>
    cases h
    obtain ⟨t, r1, h1, h2⟩ := R.bind_inv h'
    refine readKind_inv t r1 _ r' ?_ h2
    rw [getU32N_brr h1]; exact (by decide : 0 + 4 < 2 ^ 32)
  · cases h

theorem readKind_tame (t : UInt32) : Tame (GameItemEnum.readKind t) := by
  unfold GameItemEnum.readKind''')
for n, e in rd:
    m = re.match(r'GameItemEnum\.(\w+) <\$> readWith (\w+)\.arms', e)
    if m:
        o.append(f'  refine Tame.ite (map_tame (readWith_tame {m.group(2)}.arms_tame _)) ?_')
    else:
        o.append('  refine Tame.ite Tame.panic ?_')
o.append('  exact map_tame (readWith_tame Generic.arms_tame _)\n')
o.append('''theorem readKind_kind {t : UInt32} {r r' : Rd} {g : GameItemEnum}
    (h : GameItemEnum.readKind t r = .ok (g, r')) :
    (∃ k, g.kind = some k ∧ k.number = t) ∨
    ((∃ x, g = .generic t x) ∧ 24 < t.toNat) := by
  unfold GameItemEnum.readKind at h''')
for n, e in rd:
    m = re.match(r'GameItemEnum\.(\w+) <\$> readWith (\w+)\.arms', e)
    o.append('  rcases R.ite_inv h with ⟨ht, h⟩ | ⟨_, h⟩')
    if m:
        o.append(f'''  · obtain ⟨v, _, _, rfl⟩ := R.map_inv h
    exact .inl ⟨_, rfl, ht.symm⟩''')
    else:
        o.append('  · cases h')
o.append('''  · obtain ⟨v, _, _, rfl⟩ := R.map_inv h
    refine .inr ⟨⟨_, rfl⟩, ?_⟩
    have hne : ∀ n : Nat, n < 2 ^ 32 → ¬ t = UInt32.ofNat n → t.toNat ≠ n := by
      intro n hn hne e
      apply hne
      apply UInt32.toNat_inj.1
      rw [e, UInt32.toNat_ofNat_of_lt' (by simpa [UInt32.size] using hn)]''')
for n, e in rd:
    o.append(f'    have := hne {n} (by decide) (by assumption)')
o.append('    omega\n')
o.append('''theorem kind_skip (k : Kind) {pre post name payload : Bytes} (hb : k.Boundary pre post)
    (hpost : post ≠ []) (hn : RecordName name) (hne : name ≠ endbName)
    (hp : 4 + payload.length < 2 ^ 32) (hu : nameTag name ∉ k.tags) :
    GameItemEnum.read (le32 k.number ++ (pre ++ (recordBytes name payload ++ post)))
      = GameItemEnum.read (le32 k.number ++ (pre ++ post)) := by
  cases k with''')
for v in items:
    o.append(f'  | {ctor(v)} => exact typed_skip readKind_{ctor(v)} {v}.arms_tame (by decide) hb hpost hn hne hp hu')
o.append('''
theorem write_prefix {g : GameItemEnum} {k : Kind} {bs : Bytes} (hk : g.kind = some k)
    (h : g.write = .ok bs) : ∃ rest, bs = le32 k.number ++ rest := by
  cases g <;> cases hk
  all_goals exact writeWithType_prefix h
''')
o.append('end Vpin\n')
open(LP, 'w').write('\n'.join(o))
