"""Read the BIFF readers, writers and defaults of the game items into a small table."""
import re, os, sys, math
sys.path.insert(0, os.path.dirname(__file__))
from rustsrc import *
from gen_enums import ENUMS

ITEMS = [('DragPoint', 'dragpoint'), ('Wall', 'wall'), ('Flipper', 'flipper'), ('Timer', 'timer'),
         ('Plunger', 'plunger'), ('TextBox', 'textbox'), ('Bumper', 'bumper'),
         ('Trigger', 'trigger'), ('Light', 'light'), ('Kicker', 'kicker'), ('Decal', 'decal'),
         ('Gate', 'gate'), ('Spinner', 'spinner'), ('Ramp', 'ramp'), ('Reel', 'reel'),
         ('LightSequencer', 'lightsequencer'), ('Primitive', 'primitive'),
         ('Flasher', 'flasher'), ('Rubber', 'rubber'), ('HitTarget', 'hittarget'),
         ('Ball', 'ball'), ('PartGroup', 'partgroup')]
ENUMN = {n for _, n in ENUMS}
SHARED = ['is_locked', 'editor_layer', 'editor_layer_name', 'editor_layer_visibility', 'part_group_name']

BASE = {'f32': 'F32', 'bool': 'Bool', 'u32': 'UInt32', 'i32': 'Int32', 'String': 'Str',
        'Vertex2D': 'Vertex2D', 'Vertex3D': 'Vertex3D', 'Color': 'Color', 'Font': 'Font',
        'TimerData': 'TimerData', 'Vec<DragPoint>': 'List DragPoint', 'Vec<u8>': 'Bytes',
        'Vec<u32>': 'List UInt32', 'Vec<Vec<u8>>': 'List Bytes'}
for _, n in ENUMS:
    BASE[n] = n

class Item:
    pass

def ty(t):
    m = re.fullmatch(r'Option<(.*)>', t)
    if m:
        b = BASE[m.group(1)]
        return 'Option ' + (f'({b})' if ' ' in b else b)
    return BASE[t]

def floatval(e):
    if re.fullmatch(r'-?\d+\.\d*', e):
        return float(e)
    if e == 'std::f32::consts::PI / 2.0':
        import struct
        pi = struct.unpack('<f', struct.pack('<f', math.pi))[0]
        return pi / 2.0
    m = re.fullmatch(r'(-?[\d.]+) / ([\d.]+)', e)
    if m:  # f32 division: both exact in f32 here, correctly rounded via double
        return float(m.group(1)) / float(m.group(2))
    raise Exception('float ' + e)

def f32lit(e):
    v = floatval(e)
    return ('0' if v == 0.0 and not e.startswith('-') else f'0x{f32bits(v):08x}', e)

def default_expr(t, e, item):
    """Lean expression and a comment for a Rust default expression of type t"""
    e = squash(e)
    if e in ('Default::default()', 'String::default()', 'Vec::new()', 'vec![]', 'None',
             t + '::default()', '"".to_string()'):
        if t.startswith('Option<'):
            return 'none'
        if e == 'None':
            raise Exception((t, e))
        d = {'f32': '0', 'bool': 'false', 'u32': '0', 'i32': '0', 'String': '[]',
             'Vec<DragPoint>': '[]'}
        if t in d:
            return d[t]
        if t in ENUMN:
            return '.' + item.enum_default(t)
        return t + '.default'
    m = re.fullmatch(r'Some\((.*)\)', e)
    if m:
        return 'some ' + default_expr(re.fullmatch(r'Option<(.*)>', t).group(1), m.group(1), item)
    if t == 'f32':
        return f32lit(e)[0]
    if t == 'bool':
        assert e in ('true', 'false')
        return e
    if t in ('u32', 'i32'):
        assert re.fullmatch(r'-?\d+', e), e
        return e
    if t == 'String':
        m = re.fullmatch(r'"([^"\\]*)" ?\.to_(?:string|owned)\(\)', e)
        return f'"{m.group(1)}".toList'
    if t in ENUMN:
        m = re.fullmatch(r'%s::(\w+)' % t, e)
        return '.' + m.group(1)
    if t == 'Vertex3D':
        m = re.fullmatch(r'Vertex3D::new\((.*)\)', e)
        return '⟨' + ', '.join(f32lit(x)[0] for x in split_top(m.group(1))) + '⟩'
    if t == 'Color':
        if e == 'Color::WHITE':
            return 'Color.rgb 255 255 255'
        if e in ('Color::BLACK', 'Color::from_rgb(0x000000)'):
            return 'Color.rgb 0 0 0'
        m = re.fullmatch(r'Color::rgb\((\d+), (\d+), (\d+)\)', e)
        return 'Color.rgb ' + ' '.join(m.groups())
    raise Exception((t, e))

def kind_of_get(e, t):
    """reader expression -> kind"""
    base = re.sub(r'^Option<(.*)>$', r'\1', t)
    m = re.fullmatch(r'R\.get_(f32|bool|u32|i32|string|wide_string)\(\)', e)
    if m:
        k = m.group(1)
        exp = {'string': 'String', 'wide_string': 'String'}.get(k, k)
        assert base == exp, (e, t)
        return {'wide_string': 'wide'}.get(k, k)
    if e == 'R.get_u32().into()':
        assert base in ENUMN, (e, t)
        return 'enum:' + base
    if e == 'Vertex2D::biff_read(R)':
        return 'vertex2d'
    if e == 'Vertex3D::biff_read(R)':
        return 'vertex3d'
    if e == 'Vertex3D::read_unpadded(R)':
        return 'vertex3du'
    if e == 'Color::biff_read(R)':
        return 'color'
    if e == 'Font::biff_read(R)':
        return 'font'
    if e == 'dequantize_unsigned::<8>(R.get_u32())':
        return 'quant8'
    if e == 'R.get_record_data(false)':
        return 'data'
    raise Exception(('get', e, t))

def kind_of_put(fn, args, t):
    base = re.sub(r'^Option<(.*)>$', r'\1', t)
    if fn in ('f32', 'bool', 'i32', 'string'):
        return fn
    if fn == 'wide_string':
        return 'wide'
    if fn == 'u32':
        if 'quantize_unsigned::<8>' in args:
            return 'quant8'
        if '.into()' in args:
            return 'enum:' + base
        return 'u32'
    if fn == 'with':
        if args.endswith(', Color::biff_write'):
            return 'color'
        if args.endswith(', Vertex3D::write_unpadded'):
            return 'vertex3du'
    if fn == 'unpadded_vector':
        return 'vertex3du'
    if fn == 'data':
        return 'data'
    if fn == 'without_size' and base == 'Font':
        return 'font'
    if fn == '':
        return {'Vertex2D': 'vertex2d', 'Vertex3D': 'vertex3d'}[base]
    raise Exception(('put', fn, args, t))

def parse(name, stem):
    it = Item()
    it.name, it.stem = name, stem
    src = it.src = Src(f'gameitem/{stem}.rs')
    def enum_default(n):
        p = [p for p, m in ENUMS if m == n][0]
        s = Src(p)
        mm = re.search(r'enum %s \{[^}]*#\[default\]\s*(\w+)' % n, s.s)
        return mm.group(1)
    it.enum_default = enum_default
    # structure
    m, a, b = src.block(r'pub struct %s \{' % name)
    it.struct_cite = src.cite(m.start(), b)
    fields = []
    for f in split_top(re.sub(r'#\[[^\]]*\]', '', src.s[a:b])):
        mm = re.fullmatch(r'(?:pub(?:\(crate\))? )?(\w+): (.*)', squash(f))
        fields.append((mm.group(1), mm.group(2)))
    it.rust_fields = dict(fields)
    it.shared = bool(re.search(r'impl_shared_attributes!\(%s\)' % name, src.s))
    it.timer = 'timer' in it.rust_fields
    it.fields = []
    for f, t in fields:
        if it.shared and f in SHARED:
            if f == SHARED[0]:
                it.fields.append(('shared', 'SharedAttrs', None))
            continue
        if t == '[f32; 9]':
            for i in range(9):
                it.fields.append((f'{f}{i}', 'F32', 'f32'))
                it.rust_fields[f'{f}{i}'] = 'f32'
            continue
        it.fields.append((f, ty(t), t))
    if it.shared:
        assert all(s in it.rust_fields for s in SHARED), name
    # default
    m, a, b = src.block(r'impl Default for %s \{' % name)
    it.default_cite = src.cite(m.start(), b)
    m, a, b = src.block(r'fn default\(\) -> Self', a)
    body = src.s[a:b]
    lets = {}
    for mm in re.finditer(r'let (\w+)(?:: ([^=]+?))? = ([^;]*);', body):
        lets[mm.group(1)] = mm.group(3)
    m, a, b = src.block(r'(?:Self|%s) \{' % name, a)
    vals = {}
    for f in split_top(src.s[a:b]):
        mm = re.fullmatch(r'(\w+)(?:: (.*))?', squash(f))
        v = mm.group(2) or mm.group(1)
        vals[mm.group(1)] = lets.get(v, v)
    it.default = {}
    for f, t in fields:
        v = vals.pop(f)
        if t == '[f32; 9]':
            assert v == '[0.0; 9]'
            for i in range(9):
                it.default[f'{f}{i}'] = '0'
            continue
        it.default[f] = default_expr(t, v, it)
    assert not vals, vals
    if it.shared:
        assert [it.default.pop(s) for s in SHARED] == ['false', 'none', 'none', 'none', 'none'], name
        it.default['shared'] = 'SharedAttrs.default'
    # reader
    m, a, b = src.block(r'impl BiffRead for %s \{' % name)
    it.read_cite = src.cite(m.start(), b)
    body = src.s[a:b]
    rd = 'sub_data' if name == 'DragPoint' else 'reader'
    mm = re.search(r'let mut (\w+) = (%s|Self)(::default\(\);| \{)' % name, body)
    var = mm.group(1)
    it.init = {}
    if mm.group(3) == ' {':
        i = a + mm.end() - 1
        for f in split_top(src.s[i + 1:src.close(i)]):
            f = squash(f)
            if f == '..Default::default()':
                continue
            k, v = f.split(': ', 1)
            it.init[k] = default_expr(it.rust_fields[k], v, it)
    assert re.search(r'loop \{\s*%s\.next\(biff::WARN\);\s*if %s\.is_eof\(\) \{\s*break;\s*\}' % (rd, rd), body), name
    m, ma, mb = src.block(r'match (?:tag_str|tag\.as_str\(\))', a)
    it.arms = []
    pos = ma
    dflt = None
    while True:
        mm = re.compile(r'\s*,?\s*').match(src.s, pos)
        pos = mm.end()
        if pos >= mb:
            break
        mm = re.compile(r'(?:"(\w+)"|(\w+)) => ').match(src.s, pos)
        assert mm, (name, src.s[pos:pos + 80])
        if src.s[mm.end()] == '{':
            e = src.close(mm.end())
            arm = src.s[mm.end() + 1:e]
            end = e + 1
        else:
            e = src.s.index(',\n', mm.end())
            arm = src.s[mm.end():e] + ';'
            end = e + 1
        arm = squash(arm)
        if mm.group(1) is None:
            dflt = arm
        else:
            arm = arm.replace(rd + '.', 'R.').replace(f'({rd})', '(R)')
            it.arms.append((mm.group(1),) + parse_arm(it, var, arm) + (src.line(pos),))
        pos = end
    dflt = re.sub(r'\bother\b', 'tag_str', dflt)
    d = re.sub(r'warn!\([^;]*\);', 'W;', dflt)
    exp = {
        f'if !{var}.timer.biff_read_tag(tag_str, reader) && !{var}.read_shared_attribute(tag_str, reader) {{ W; reader.skip_tag(); }}': (True, True),
        f'if !{var}.read_shared_attribute(tag_str, reader) {{ W; reader.skip_tag(); }}': (False, True),
        f'if !{var}.timer.biff_read_tag(tag_str, reader) {{ W; reader.skip_tag(); }}': (True, False),
        f'W; {rd}.skip_tag();': (False, False),
    }
    assert d in exp, (name, d)
    assert exp[d] == (it.timer, it.shared), (name, d)
    # writer
    m, a, b = src.block(r'impl BiffWrite for %s \{' % name)
    it.write_cite = src.cite(m.start(), b)
    m, a, b = src.block(r'fn biff_write\(&self, writer: &mut (?:biff::)?BiffWriter\)', a)
    body = squash(src.s[a:b])
    it.ops = parse_ops(it, body)
    return it

def parse_arm(it, var, arm):
    """-> (kind, field, opt)"""
    T = it.rust_fields
    if arm == '':
        return ('marker', None, False)
    mm = re.fullmatch(r'%s\.(\w+) = (?:Some\(([^;]*)\)|([^;]*));' % var, arm)
    if mm and mm.group(1) in T:
        f = mm.group(1)
        if mm.group(2):
            assert T[f].startswith('Option<')
            return (kind_of_get(mm.group(2), T[f]), f, True)
        assert not T[f].startswith('Option<'), (it.name, arm)
        return (kind_of_get(mm.group(3), T[f]), f, False)
    mm = re.fullmatch(r'%s\.(\w+)\[(\d)\] = R\.get_f32\(\);' % var, arm)
    if mm:
        return ('f32', mm.group(1) + mm.group(2), False)
    if arm == f'{var}.timer.is_enabled = R.get_bool();':
        return ('timer_enabled', 'timer', False)
    if re.fullmatch(r'let (\w+) = DragPoint::biff_read\(R\); %s\.drag_points\.push\(\1\);' % var, arm):
        return ('dragpoints', 'drag_points', False)
    if arm == f'{var}.x = R.get_f32(); {var}.y = R.get_f32();':
        return ('xy', 'x', False)
    if it.name == 'Primitive':
        if arm.startswith('match compressed_animation_vertices {'):
            assert arm == 'match compressed_animation_vertices { Some(ref mut m3ay) => { m3ay.push(R.get_u32()); } None => compressed_animation_vertices = Some(vec![R.get_u32()]), };'
            return ('push_u32', 'compressed_animation_vertices_len', False)
        if arm.startswith('match m3ax {'):
            assert arm == 'match m3ax { Some(ref mut m3ax) => { m3ax.push(R.get_record_data(false)); } None => { m3ax = Some(vec![R.get_record_data(false)]); } };'
            return ('push_data', 'compressed_animation_vertices_data', False)
    raise Exception((it.name, arm))

def parse_ops(it, body):
    T = it.rust_fields
    ops = []
    rules = []
    def rule(pat):
        def deco(f):
            rules.append((re.compile(pat), f))
            return f
        return deco
    @rule(r'writer\.write_tagged(?:_(\w+))?\("(\w+)", &?self\.(\w+)(, [\w:]+)?\);')
    def _(m):
        f = m.group(3)
        ops.append((kind_of_put(m.group(1) or '', m.group(3) + (m.group(4) or ''), T[f]), m.group(2), f, False))
    @rule(r'writer\.write_tagged_f32\("(\w+)", self\.(\w+)\[(\d)\]\);')
    def _(m):
        ops.append(('f32', m.group(1), m.group(2) + m.group(3), False))
    @rule(r'writer\.write_tagged_u32\("(\w+)", \(&self\.(\w+)\)\.into\(\)\);')
    def _(m):
        ops.append((kind_of_put('u32', '.into()', T[m.group(2)]), m.group(1), m.group(2), False))
    @rule(r'if let Some\((\w+)\) = &?self\.(\w+) \{ writer\.write_tagged_unpadded_vector\( "(\w+)", \1\.x, \1\.y, \1\.z, \); \};?')
    def _(m):
        ops.append(('vertex3du', m.group(3), m.group(2), True))
    @rule(r'if let Some\((\w+)\) = &?self\.(\w+) \{ writer\.write_tagged_(\w+)\("(\w+)", (\*?\1|\1\.into\(\)|\1\.clone\(\)\.into\(\)|quantize_unsigned::<8>\(\1\)|\1, Color::biff_write)\); \};?')
    def _(m):
        ops.append((kind_of_put(m.group(3), m.group(5), T[m.group(2)]), m.group(4), m.group(2), True))
    @rule(r'for (\w+) in &self\.drag_points \{ writer\.write_tagged\("DPNT", \1\);? \}')
    def _(m):
        ops.append(('dragpoints', 'DPNT', 'drag_points', False))
    @rule(r'writer\.write_marker_tag\("(\w+)"\);')
    def _(m):
        ops.append(('marker', m.group(1), None, False))
    @rule(r'self\.timer\.biff_write(_tmon|_tmin)?\(writer\);')
    def _(m):
        ops.append(('timer' + (m.group(1) or ''), None, 'timer', False))
    @rule(r'self\.write_shared_attributes\(writer\);')
    def _(m):
        ops.append(('shared', None, 'shared', False))
    @rule(r'writer\.new_tag\("VCEN"\); writer\.write_f32\(self\.x\); writer\.write_f32\(self\.y\); writer\.end_tag\(\);')
    def _(m):
        ops.append(('xy', 'VCEN', 'x', False))
    @rule(r'if let \(Some\(m3ays\), Some\(m3axs\)\) = \( &self\.compressed_animation_vertices_len, &self\.compressed_animation_vertices_data, \) \{ for \(m3ay, m3ax\) in m3ays\.iter\(\)\.zip\(m3axs\.iter\(\)\) \{ writer\.write_tagged_u32\("M3AY", \*m3ay\); writer\.write_tagged_data\("M3AX", m3ax\); \} \}')
    def _(m):
        ops.append(('anim', None, None, False))
    pos = 0
    closed = False
    while pos < len(body):
        if body[pos] == ' ':
            pos += 1
            continue
        if body.startswith('writer.close(true);', pos):
            pos += len('writer.close(true);')
            closed = True
            assert pos >= len(body.rstrip()), it.name
            continue
        for p, f in rules:
            m = p.match(body, pos)
            if m:
                f(m)
                pos = m.end()
                break
        else:
            raise Exception((it.name, body[pos:pos + 200]))
    assert closed
    for k, t, f, o in ops:
        if f in T and f != 'timer' and k != 'xy':
            assert o == T[f].startswith('Option<'), (it.name, f)
    return ops

def all_items():
    return [parse(n, s) for n, s in ITEMS]

if __name__ == '__main__':
    for it in all_items():
        w = {f for _, _, f, _ in it.ops if f}
        r = {f for _, _, f, _, _ in it.arms if f}
        fs = {f for f, _, _ in it.fields}
        print(it.name, len(it.fields), len(it.arms), len(it.ops), 'shared' if it.shared else '', 'timer' if it.timer else '', 'init', it.init)
        print('   unwritten', fs - w, 'unread', fs - r, 'some-default', [f for f in it.default if it.default[f].startswith('some')])
        wt = {(t, k, f) for k, t, f, _ in it.ops}
        print('   alias', [x for x in it.arms if (x[0], x[1], x[2]) not in wt])
        print('   order-diff tags', [x for x in wt if x[0] and x[0] not in [y[0] for y in it.arms]])
