#!/usr/bin/env python3
"""Generate the model, specification and lemmas of the game data from /repo/src/vpx/gamedata.rs."""
import os, sys, re
sys.path.insert(0, os.path.dirname(__file__))
from gen_items import *

BASE.update({'StringWithEncoding': 'StringWithEncoding', 'Vec<SaveMaterial>': 'List SaveMaterial',
             'Vec<SavePhysicsMaterial>': 'List SavePhysicsMaterial', 'Vec<Material>': 'List Material',
             'Vec<RenderProbeWithGarbage>': 'List RenderProbeWithGarbage', '[Color; 16]': 'List Color'})

# chunks of the writer, by first tag; the fields written by a chunk form one structure
CHUNKS = [('A', 'GDView', 'LEFT', 'table bounds and desktop view'),
          ('B', 'GDScreens', 'ROTF', 'fullscreen and full single screen views'),
          ('C', 'GDPhysics', 'ORRP', 'physics and stereo'),
          ('D', 'GDLook', 'IMAG', 'images, glass and lights'),
          ('E', 'GDRender', 'SVOL', 'sound levels and rendering'),
          ('F', 'GDContent', 'MASI', 'materials, counts, name and script')]

src = Src('gamedata.rs')

class G: pass

def parse():
    g = G()
    m, a, b = src.block(r'pub struct GameData \{')
    g.struct_cite = src.cite(m.start(), b)
    g.rust = {}
    for f in split_top(re.sub(r'#\[[^\]]*\]', '', src.s[a:b])):
        mm = re.fullmatch(r'(?:pub(?:\(crate\))? )?(\w+): (.*)', squash(f))
        g.rust[mm.group(1)] = mm.group(2)
    # default
    m, a, b = src.block(r'impl Default for GameData \{')
    g.default_cite = src.cite(m.start(), b)
    m, a, b = src.block(r'\n        GameData \{', a)
    g.default = {}
    for f in split_top(src.s[a:b]):
        k, v = squash(f).split(': ', 1)
        t = g.rust[k]
        sp = {'String::new()': '[]', 'StringWithEncoding::empty()': '⟨.utf8, []⟩',
              '[Color::BLACK; 16]': 'List.replicate 16 (Color.rgb 0 0 0)',
              'Color::from_rgb(0x626E8E)': 'Color.fromRgb 0x626E8E',
              'Color::rgb((0.1 * 255.) as u8, (0.1 * 255.) as u8, (0.1 * 255.) as u8)': 'Color.rgb 25 25 25',
              'Color::rgb((0.4 * 255.) as u8, (0.4 * 255.) as u8, (0.4 * 255.) as u8)': 'Color.rgb 102 102 102'}
        if v in sp:
            g.default[k] = sp[v]
        elif t.startswith('Vec<') and v == 'Vec::new()':
            g.default[k] = '[]'
        else:
            g.default[k] = default_expr(t, v, None)
    assert set(g.default) == set(g.rust), set(g.rust) ^ set(g.default)
    # reader
    m, a, b = src.block(r'pub fn read_all_gamedata_records')
    g.read_cite = src.cite(m.start(), b)
    m, ma, mb = src.block(r'match tag\.as_str\(\)', a)
    g.arms = []
    pos = ma
    g.default_arm = None
    while True:
        pos = re.compile(r'\s*,?\s*').match(src.s, pos).end()
        if pos >= mb: break
        mm = re.compile(r'(?:"(\w+)"|(\w+)) => ').match(src.s, pos)
        assert mm, src.s[pos:pos+80]
        if src.s[mm.end()] == '{':
            e = src.close(mm.end()); arm = src.s[mm.end()+1:e]; end = e + 1
        else:
            e = src.s.index(',\n', mm.end()); arm = src.s[mm.end():e] + ';'; end = e + 1
        arm = squash(arm)
        line = src.line(pos)
        if mm.group(1) is None:
            g.default_arm = arm
        else:
            g.arms.append((mm.group(1),) + arm_kind(g, mm.group(1), arm) + (line,))
        pos = end
    assert g.default_arm.startswith('let data = reader.get_record_data(false); warn!(')
    # writer
    m, a, b = src.block(r'pub fn write_all_gamedata_records')
    g.write_cite = src.cite(m.start(), b)
    g.ops = ops_of(g, squash(src.s[a:b]), a)
    return g

def arm_kind(g, tag, arm):
    if tag == 'EFSS':
        assert arm == 'if version.u32() == 1080 && previous_tag != "BOTM" { gamedata.is_10_8_0_beta1_to_beta4 = true; } gamedata.bg_enable_fss = Some(reader.get_bool())', arm
        return ('efss', 'bg_enable_fss', True)
    if tag in ('MATE', 'PHMA'):
        T = {'MATE': 'SaveMaterial', 'PHMA': 'SavePhysicsMaterial'}[tag]
        last = {'MATE': 'gamedata.materials_old = materials;', 'PHMA': 'gamedata.materials_physics_old = Some(materials);'}[tag]
        assert arm == f'let data = reader.get_record_data(false).to_vec(); let mut materials: Vec<{T}> = Vec::new(); let mut buff = BytesMut::from(data.as_slice()); for _ in 0..gamedata.materials_size {{ let material = {T}::read(&mut buff); materials.push(material); }} {last}', arm
        return ('mate' if tag == 'MATE' else 'phma', 'materials_old' if tag == 'MATE' else 'materials_physics_old', tag == 'PHMA')
    if tag == 'MATR':
        assert arm == 'let data = reader.get_record_data(false).to_vec(); let mut reader = BiffReader::new(&data); let material = Material::biff_read(&mut reader); gamedata .materials .get_or_insert_with(Vec::new) .push(material);', arm
        return ('matr', 'materials', True)
    if tag == 'RPRB':
        assert arm == 'let data = reader.get_record_data(false).to_vec(); let mut reader = BiffReader::new(&data); let render_probe = RenderProbeWithGarbage::biff_read(&mut reader); gamedata .render_probes .get_or_insert_with(Vec::new) .push(render_probe);', arm
        return ('rprb', 'render_probes', True)
    if tag == 'CCUS':
        assert arm == 'let data = reader.get_record_data(false); let custom_colors = read_colors(data); gamedata.custom_colors = custom_colors;', arm
        return ('colors', 'custom_colors', False)
    if tag == 'CODE':
        assert arm == 'let len = reader.get_u32_no_remaining_update(); gamedata.code = reader.get_str_with_encoding_no_remaining_update(len as usize);', arm
        return ('code', 'code', False)
    mm = re.fullmatch(r'gamedata\.(\w+) = (?:Some\((.*)\)|(.*?));?', arm)
    f = mm.group(1); t = g.rust[f]
    e = (mm.group(2) or mm.group(3)).rstrip(';')
    e = e.replace('reader.', 'R.').replace('(reader)', '(R)').replace('.to_vec()', '')
    assert bool(mm.group(2)) == t.startswith('Option<'), arm
    return (kind_of_get(e, t), f, bool(mm.group(2)))

def ops_of(g, body, off):
    T = g.rust
    ops = []
    rules = []
    def rule(p):
        def d(f): rules.append((re.compile(p), f)); return f
        return d
    assert body.startswith('let mut writer = BiffWriter::new(); ')
    body = body[len('let mut writer = BiffWriter::new(); '):]
    @rule(r'writer\.write_tagged_(\w+)\("(\w+)", &?gamedata\.(\w+)((?:, [\w:]+)?)\);')
    def _(m):
        if m.group(1) == 'string_with_encoding_no_size':
            ops.append(('code', m.group(2), m.group(3), False)); return
        ops.append((kind_of_put(m.group(1), m.group(3) + m.group(4), T[m.group(3)]), m.group(2), m.group(3), False))
    @rule(r'writer\.write_tagged_u32\( "(\w+)", quantize_unsigned::<8>\(gamedata\.(\w+)\), \);')
    def _(m): ops.append(('quant8', m.group(1), m.group(2), False))
    @rule(r'if let Some\((\w+)\) = &?gamedata\.(\w+) \{ writer\.write_tagged_(\w+)\("(\w+)", (\1|\1\.into\(\))\); \}')
    def _(m): ops.append((kind_of_put(m.group(3), m.group(5), T[m.group(2)]), m.group(4), m.group(2), True))
    @rule(r'if version\.u32\(\) >= 1080 && !gamedata\.is_10_8_0_beta1_to_beta4 && let Some\(efss\) = gamedata\.bg_enable_fss \{ writer\.write_tagged_bool\("EFSS", efss\); \}')
    def _(m): ops.append(('efss1', 'EFSS', 'bg_enable_fss', True))
    @rule(r'if \(version\.u32\(\) < 1080 \|\| gamedata\.is_10_8_0_beta1_to_beta4\) && let Some\(efss\) = gamedata\.bg_enable_fss \{ writer\.write_tagged_bool\("EFSS", efss\); \}')
    def _(m): ops.append(('efss2', 'EFSS', 'bg_enable_fss', True))
    @rule(r'let mut bytes = BytesMut::new\(\); for mat in &gamedata\.materials_old \{ mat\.write\(&mut bytes\); \} writer\.write_tagged_data\("MATE", &bytes\);')
    def _(m): ops.append(('mate', 'MATE', 'materials_old', False))
    @rule(r'if let Some\(phma\) = &gamedata\.materials_physics_old \{ let mut bytes = BytesMut::new\(\); for mat in phma \{ mat\.write\(&mut bytes\); \} writer\.write_tagged_data\("PHMA", &bytes\); \}')
    def _(m): ops.append(('phma', 'PHMA', 'materials_physics_old', True))
    @rule(r'if let Some\(materials_new\) = &gamedata\.materials \{ for mat in materials_new \{ let mut mat_writer = BiffWriter::new\(\); mat\.biff_write\(&mut mat_writer\); writer\.write_tagged_data\("MATR", mat_writer\.get_data\(\)\); \} \}')
    def _(m): ops.append(('matr', 'MATR', 'materials', True))
    @rule(r'if let Some\(render_probes\) = &gamedata\.render_probes \{ for render_probe in render_probes \{ let mut probe_writer = BiffWriter::new\(\); render_probe\.biff_write\(&mut probe_writer\); writer\.write_tagged_data\("RPRB", probe_writer\.get_data\(\)\); \} \}')
    def _(m): ops.append(('rprb', 'RPRB', 'render_probes', True))
    @rule(r'let custom_color_bytes = write_colors\(&gamedata\.custom_colors\); writer\.write_tagged_data\("CCUS", custom_color_bytes\.as_slice\(\)\);')
    def _(m): ops.append(('colors', 'CCUS', 'custom_colors', False))
    pos = 0
    while True:
        while pos < len(body) and body[pos] == ' ': pos += 1
        if body.startswith('writer.close(true);', pos):
            assert body[pos:].strip() == 'writer.close(true); writer.get_data().to_vec()', body[pos:]
            break
        for p, f in rules:
            m = p.match(body, pos)
            if m:
                f(m); pos = m.end(); break
        else:
            raise Exception(body[pos:pos+200])
    return ops

g = parse()
# assign fields to chunks
chunk_of = {}
cur = None
chunk_ops = {c[0]: [] for c in CHUNKS}
starts = {c[2]: c[0] for c in CHUNKS}
for op in g.ops:
    if op[1] in starts: cur = starts[op[1]]
    chunk_ops[cur].append(op)
    chunk_of.setdefault(op[2], cur)
chunk_of['is_10_8_0_beta1_to_beta4'] = 'A'
assert set(chunk_of) == set(g.rust), set(g.rust) ^ set(chunk_of)
FIELDS = {c[0]: [] for c in CHUNKS}
done = set()
for c in CHUNKS:
    for op in chunk_ops[c[0]]:
        if op[2] not in done:
            done.add(op[2]); FIELDS[c[0]].append(op[2])
            if op[2] == 'bg_enable_fss':
                FIELDS['A'].append('is_10_8_0_beta1_to_beta4')

def setter(f, v, s='s'):
    return f'{{ {s} with {f} := {v} }}'

SPECIAL_GET = {'colors': 'getColors16', 'code': 'getCode', 'matr': 'getMaterialRecord', 'rprb': 'getProbeRecord'}

def gen_model():
    o = [header(['Verif.Model.Material', 'Verif.Model.RenderProbe'],
        'Game data, /repo/src/vpx/gamedata.rs. Generated by tools/gen_gamedata.py from the source; each\ndefinition cites what it models.')]
    for c, N, _, d in CHUNKS:
        o.append(f'/-- part of `GameData`, {g.struct_cite}: {d} -/')
        o.append(f'structure {N} where')
        for f in FIELDS[c]:
            o.append(f'  {f} : {ty(g.rust[f])}')
        o.append('  deriving DecidableEq, Repr\n')
    o.append(f'/-- `struct GameData`, {g.struct_cite}. The fields are grouped in the order in which they are\nwritten; the fixed-size array of custom colours is a list. -/')
    o.append('structure GameData extends ' + ', '.join(c[1] for c in CHUNKS) + '\n  deriving DecidableEq, Repr\n')
    o.append(f'/-- `GameData::default`, {g.default_cite} (floating point values as bit patterns) -/')
    o.append('def GameData.default : GameData where')
    for c, N, _, d in CHUNKS:
        for f in FIELDS[c]:
            o.append(f'  {f} := {g.default[f]}')
    o.append('')
    o.append(f'''/-- the local variables of the reading loop: the game data and the tag of the previous record,
{g.read_cite} -/
structure GDState where
  gd : GameData
  prev : Tag
  deriving DecidableEq, Repr

/-- an arm that sets a field; `previous_tag` is set behind the match -/
def gfld {{α : Type}} (t : Tag) (get : R α) (set : α → GameData → GameData) : Tag × (GDState → R GDState) :=
  (t, fld get fun v st => ⟨set v st.gd, t⟩)

/-- the same for a getter that looks at the game data read so far -/
def gfldS {{α : Type}} (t : Tag) (get : GameData → R α) (set : α → GameData → GameData) :
    Tag × (GDState → R GDState) :=
  (t, fun st => fld (get st.gd) (fun v st => ⟨set v st.gd, t⟩) st)

/-- `read_colors`, /repo/src/vpx/gamedata.rs:2325-2336 -/
def readColors (data : Bytes) : Res (List Color) :=
  match bmList bmU32 16 data with
  | .error e => .error e
  | .ok (l, _) => .ok (l.map Color.fromWinColor)

/-- `write_colors`, /repo/src/vpx/gamedata.rs:2338-2344 -/
def writeColors (colors : List Color) : Bytes := colors.flatMap fun c => le32 c.toWinColor

/-- the CCUS arm, /repo/src/vpx/gamedata.rs:2303-2307 -/
def getColors16 : R (List Color) := do
  let d ← getRecordData
  R.ofRes (readColors d)

/-- the loops of the MATE and PHMA arms, /repo/src/vpx/gamedata.rs:2239-2260; what follows the last
entry is ignored -/
def getFixedList {{α : Type}} (get : BM α) (n : UInt32) : R (List α) := do
  let d ← getRecordData
  R.ofRes (match bmList get n.toNat d with
    | .error e => .error e
    | .ok (l, _) => .ok l)

/-- the MATR arm, /repo/src/vpx/gamedata.rs:2262-2270 -/
def getMaterialRecord : R Material := do
  let d ← getRecordData
  R.ofRes (Material.read d)

/-- the RPRB arm, /repo/src/vpx/gamedata.rs:2271-2279 -/
def getProbeRecord : R RenderProbeWithGarbage := do
  let d ← getRecordData
  R.ofRes (RenderProbeWithGarbage.read d)

/-- the EFSS arm, /repo/src/vpx/gamedata.rs:2115-2120 -/
def efssArm (version : UInt32) : GDState → R GDState := fun st =>
  fld getBool (fun v st => ⟨{{ st.gd with
    is_10_8_0_beta1_to_beta4 :=
      if version = 1080 ∧ st.prev ≠ tag!"BOTM" then true else st.gd.is_10_8_0_beta1_to_beta4,
    bg_enable_fss := some v }}, tag!"EFSS"⟩) st

/-- the default arm, /repo/src/vpx/gamedata.rs:2315-2318 -/
def gameDataOther : GDState → R GDState := fun st => do
  let t ← getTag
  let _ ← getRecordData
  pure ⟨st.gd, t⟩
''')
    for c, N, _, d in CHUNKS:
        fs = set(FIELDS[c])
        o.append(f'/-- match arms of `read_all_gamedata_records`, {g.read_cite}: {d} -/')
        arms = []
        for tag, kind, f, opt, line in g.arms:
            if f not in fs: continue
            T = f'tag!"{tag}"'
            if kind == 'efss': a = f'({T}, efssArm version)'
            elif kind == 'mate': a = f'gfldS {T} (fun s => getFixedList bmSaveMaterial s.materials_size) fun v s => {setter(f, "v")}'
            elif kind == 'phma': a = f'gfldS {T} (fun s => getFixedList bmSavePhysicsMaterial s.materials_size) fun v s => {setter(f, "some v")}'
            elif kind in ('matr', 'rprb'): a = f'gfld {T} {SPECIAL_GET[kind]} fun v s => {setter(f, f"some (s.{f}.getD [] ++ [v])")}'
            elif kind in SPECIAL_GET: a = f'gfld {T} {SPECIAL_GET[kind]} fun v s => {setter(f, "v")}'
            else: a = f'gfld {T} {info(kind)[0]} fun v s => {setter(f, "some v" if opt else "v")}'
            arms.append(a)
        v = '(version : UInt32) ' if c == 'A' else ''
        o.append(f'def GameData.arms{c} {v}: Handlers GDState :=\n  [' + ',\n   '.join(arms) + ']\n')
    o.append(f'/-- the whole match, {g.read_cite} -/')
    o.append('def GameData.arms (version : UInt32) : Handlers GDState :=\n  GameData.armsA version ++ (GameData.armsB ++ (GameData.armsC ++ (GameData.armsD ++ (GameData.armsE ++\n  (GameData.armsF ++ [(anyTag, gameDataOther)])))))\n')
    o.append(f'''/-- `read_all_gamedata_records`, {g.read_cite} -/
def GameData.read (version : UInt32) (data : Bytes) : Res GameData :=
  match readStruct (GameData.arms version) ⟨GameData.default, 0⟩ data with
  | .error e => .error e
  | .ok st => .ok st.gd

/-- records of the modern materials, /repo/src/vpx/gamedata.rs:2042-2048 -/
def materialOps (l : List Material) : List WOp := l.map fun m => .sizedR tag!"MATR" m.write

/-- records of the render probes, /repo/src/vpx/gamedata.rs:2050-2056 -/
def probeOps (l : List RenderProbeWithGarbage) : List WOp := l.map fun p => .sizedR tag!"RPRB" p.write

/-- the EFSS record in the place of 10.8.0 and later, /repo/src/vpx/gamedata.rs:1746-1751 -/
def GameData.efssEarly (version : UInt32) (s : GameData) : List WOp :=
  if version ≥ 1080 ∧ ¬ s.is_10_8_0_beta1_to_beta4 then opt (wBool tag!"EFSS") s.bg_enable_fss else []

/-- the EFSS record in the place of versions before 10.8.0 and of its first betas,
/repo/src/vpx/gamedata.rs:1795-1799 -/
def GameData.efssLate (version : UInt32) (s : GameData) : List WOp :=
  if version < 1080 ∨ s.is_10_8_0_beta1_to_beta4 then opt (wBool tag!"EFSS") s.bg_enable_fss else []
''')
    def opl(op):
        kind, tag, f, opt = op
        T = f'tag!"{tag}"'
        if kind == 'mate': return f'[.sizedR {T} (bytesList SaveMaterial.bytes s.{f})]'
        if kind == 'phma': return f'opt (fun l => .sizedR {T} (bytesList SavePhysicsMaterial.bytes l)) s.{f}'
        if kind == 'matr': return f'materialOps (s.{f}.getD [])'
        if kind == 'rprb': return f'probeOps (s.{f}.getD [])'
        if kind == 'colors': return f'[wData {T} (writeColors s.{f})]'
        if kind == 'code': return f'[wStringEncNoSize {T} s.{f}]'
        w = info(kind)[1]
        return f'opt ({w} {T}) s.{f}' if opt else f'[{w} {T} s.{f}]'
    global PARTS
    PARTS = []
    curp = []
    name = 'A1'
    for c, N, _, d in CHUNKS:
        if c != 'A': name = c; curp = []
        for op in chunk_ops[c]:
            if op[0] == 'efss1':
                PARTS.append(('A1', c, curp)); curp = []; name = 'A2'
            elif op[0] == 'efss2':
                PARTS.append(('A2', c, curp)); curp = []; name = None
            else: curp.append(op)
        if name: PARTS.append((name, c, curp))
    for n, c, ops in PARTS:
        o.append(f'/-- calls of `write_all_gamedata_records` from {ops[0][1]} to {ops[-1][1]}, {g.write_cite} -/')
        o.append(f'def GameData.ops{n} (s : GameData) : List WOp := List.flatten [\n  ' + ',\n  '.join(opl(op) for op in ops) + ']\n')
    o.append(f'/-- calls made by `write_all_gamedata_records` before `close(true)`, {g.write_cite} -/')
    o.append('def GameData.ops (version : UInt32) (s : GameData) : List WOp := List.flatten [\n  s.opsA1, s.efssEarly version, s.opsA2, s.efssLate version, s.opsB, s.opsC, s.opsD, s.opsE, s.opsF]\n')
    o.append(f'/-- `write_all_gamedata_records`, {g.write_cite} -/')
    o.append('def GameData.write (version : UInt32) (s : GameData) : Res Bytes := writeBiff (s.ops version)\n')
    o.append('end Vpin\n')
    return '\n'.join(o)

SP_PRED = {'mate': '(fun l => ∀ m ∈ l, Name31 m.name)', 'phma': '(fun l => ∀ m ∈ l, Name31 m.name)',
           'matr': '(fun l => l ≠ [] ∧ ∀ m ∈ l, Text m.name)', 'rprb': '(fun l => l ≠ [] ∧ ∀ p ∈ l, Text p.render_probe.name)',
           'colors': '(fun l => l.length = 16)', 'code': 'Script'}
def conds():
    out = []
    for c, N, _, d in CHUNKS:
        for kind, tag, f, opt in chunk_ops[c]:
            if kind in ('efss1', 'efss2'): continue
            p = SP_PRED.get(kind) or info(kind)[4]
            if p: out.append((f, p, opt, kind))
    return out
CONDS = conds()

def gen_spec():
    o = [header(['Verif.Model.GameData', 'Verif.Spec.Structs'], 'Which game data the file format can hold. Generated by tools/gen_gamedata.py.')]
    o.append('''/-- A script as it comes out of a file: bytes without NUL, taken as UTF-8 if they are UTF-8 and as
Latin-1 otherwise. -/
def Script (s : StringWithEncoding) : Prop :=
  ∃ d : Bytes, 0 ∉ d ∧ d.length < 2 ^ 32 ∧ s = StringWithEncoding.ofBytes d
''')
    o.append('/-- Every text is representable, quantised levels are exact, and lists that the format cannot tell\nfrom absent ones are not empty. -/')
    cs = [f'(OptP {p} s.{f})' if opt else f'({p} s.{f})' for f, p, opt, k in CONDS]
    o.append('def GameData.Fields (s : GameData) : Prop :=\n  ' + ' ∧\n  '.join(cs) + '\n')
    o.append('''/-- The number of materials agrees with the legacy material tables, and every table, material and
render probe fits in a record of a 32 bit size. -/
def GameData.Fits (s : GameData) : Prop :=
  s.materials_old.length = s.materials_size.toNat ∧ 4 + 76 * s.materials_old.length < 2 ^ 32 ∧
  OptP (fun l => l.length = s.materials_size.toNat) s.materials_physics_old ∧
  (∀ m ∈ s.materials.getD [], ∃ bs, m.write = .ok bs ∧ RecordData bs) ∧
  (∀ p ∈ s.render_probes.getD [], ∃ bs, p.write = .ok bs ∧ RecordData bs)

/-- The flag for the beta versions is only set for a table of version 1080 with an EFSS setting; such
a table without the flag has no camera layout mode (CLMO). -/
def GameData.EfssOk (version : UInt32) (s : GameData) : Prop :=
  (s.is_10_8_0_beta1_to_beta4 = true → version = 1080 ∧ s.bg_enable_fss.isSome) ∧
  (version = 1080 → s.is_10_8_0_beta1_to_beta4 = false → s.bg_enable_fss.isSome →
    s.camera_layout_mode = none)

/-- game data that survives being stored in a table of this version -/
def GameData.WF (version : UInt32) (s : GameData) : Prop :=
  s.Fields ∧ s.Fits ∧ s.EfssOk version
''')
    o.append('/-- game data with every optional part present -/')
    o.append('def GameData.sample : GameData where')
    kinds = {f: (k, opt) for k, t, f, opt in g.ops}
    for c, N, _, d in CHUNKS:
        for f in FIELDS[c]:
            if f == 'is_10_8_0_beta1_to_beta4': v = 'true'
            elif f == 'bg_enable_fss': v = 'some true'
            elif f == 'materials_size': v = '2'
            else:
                k, opt = kinds[f]
                sp = {'mate': '[SaveMaterial.sample, SaveMaterial.sample]', 'phma': 'some [SavePhysicsMaterial.sample, SavePhysicsMaterial.sample]',
                      'matr': 'some [Material.sample]', 'rprb': 'some [⟨RenderProbe.sample, [1, 2]⟩]',
                      'colors': 'List.replicate 16 (Color.rgb 1 2 3)', 'code': '⟨.utf8, "Sub é".toList⟩'}
                if k in sp: v = sp[k]
                else:
                    v = info(k)[6]
                    if opt: v = f'some {v}' if v[0] in '0123456789(⟨[' or ' ' not in v and '.' not in v[1:] else f'some ({v})'
            o.append(f'  {f} := {v}')
    o.append('')
    o.append('theorem GameData.sample_fields : GameData.sample.Fields :=\n  ⟨' + ', '.join(
        (lambda p: f'.some ({p})' if opt else p)({'mate': 'by decide', 'phma': 'by decide', 'matr': 'by decide', 'rprb': 'by decide', 'colors': 'by decide',
          'code': '⟨[0x53, 0x75, 0x62, 0x20, 0xc3, 0xa9], by decide, by decide, by decide +kernel⟩'}.get(k) or info(k)[7]) for f, p, opt, k in CONDS) + '⟩\n')
    o.append('end Vpin\n')
    return '\n'.join(o)

def acc(i):
    n = len(CONDS)
    return 'h' + '.2' * i + ('.1' if i < n - 1 else '')

def gen_lemmas():
    o = [header(['Verif.Lemmas.GameDataBase'], 'Game data: reading back what was written, and what the reader guarantees for every input.\nGenerated by tools/gen_gamedata.py.')]
    idx = {f: i for i, (f, p, opt, k) in enumerate(CONDS)}
    allf = [(c, f) for c, _, _, _ in CHUNKS for f in FIELDS[c]]
    cur = {f: f'GameData.default.{f}' for c, f in allf}
    done_chunks = []
    def state(active, c0):
        parts = []
        for c, N, _, _ in CHUNKS:
            if c == c0: parts.append('⟨' + ', '.join(cur[f] for f in FIELDS[c]) + '⟩')
            elif c in done_chunks: parts.append(f's.to{N}')
            else: parts.append(f'GameData.default.to{N}')
        if c0 != 'A' :
            parts[0] = 's.toGDView'
        return '⟨' + ', '.join(parts) + '⟩'
    for n, c, ops in PARTS:
        if n == 'A2':
            cur['bg_enable_fss'] = 'e'; cur['is_10_8_0_beta1_to_beta4'] = 'b'
        st0 = state(None, c)
        body = []
        for j, (kind, tag, f, opt) in enumerate(ops):
            P = SP_PRED.get(kind) or info(kind)[4]
            hp = f'({acc(idx[f])})' if P else ('(fun _ _ => trivial)' if opt else 'trivial')
            if kind == 'mate': p = 'mate_reads ht hf rfl'
            elif kind == 'phma': p = 'phma_reads ht hf rfl rfl'
            elif kind == 'matr': p = 'matr_reads ht hf rfl'
            elif kind == 'rprb': p = 'rprb_reads ht hf rfl'
            elif kind == 'colors': p = f'colors_rt.greq (fun v (s : GameData) => {setter(f, "v")}) {hp} rfl'
            elif kind == 'code': p = f'code_rt.greq (fun v (s : GameData) => {setter(f, "v")}) {hp} rfl'
            else:
                rt = info(kind)[2]
                p = f'{rt}.gopt (fun v (s : GameData) => {setter(f, "v")}) {hp} rfl rfl' if opt else f'{rt}.greq (fun v (s : GameData) => {setter(f, "v")}) {hp} rfl'
            p = p.replace('ht', {'mate': f'({acc(idx["materials_old"])})', 'phma': f'({acc(idx["materials_physics_old"])})', 'matr': f'({acc(idx["materials"])})', 'rprb': f'({acc(idx["render_probes"])})'}.get(kind, 'ht'))
            cur[f] = f's.{f}'
            body.append(f'  refine .segTo {state(None, c)}\n    ({p}) rfl ?_')
        st1 = state(None, c)
        extra = '{e : Option Bool} {b : Bool} ' if n == 'A2' else ''
        hf = '(hf : s.Fits) ' if n == 'F' else ''
        tail = {'A1': '', 'A2': ''}.get(n, '')
        if n == 'A1': continue
        o.append(f'theorem GameData.reads{n} {{v : UInt32}} {{s : GameData}} {extra}(h : s.Fields) {hf}:\n    GReads v s.ops{n}\n    {st0}\n    {st1} := by')
        o.append(f'  unfold GameData.ops{n}')
        o += body
        o.append('  exact .done rfl\n')
        if c != 'A' or n == 'A2':
            done_chunks.append(c)
    # invariant
    def tup(repl):
        n = len(CONDS)
        return '⟨' + ', '.join(repl.get(CONDS[i][0], acc(i)) for i in range(n)) + '⟩'
    for c, N, _, d in CHUNKS:
        fs = set(FIELDS[c])
        lines = []; tl = []
        for tag, kind, f, opt, line in g.arms:
            if f not in fs: continue
            if kind == 'efss':
                lines.append('.cons efss_inv'); tl.append('.cons (fun _ => bool_tame.fld)'); continue
            if kind in ('mate', 'phma'):
                gp = {'mate': 'saveMaterials_gp', 'phma': 'savePhysics_gp'}[kind]
                lines.append(f'.cons (.gfldS (fun _ => {gp}) fun _ _ h hv => {tup({f: ".some hv" if opt else "hv"})})')
                tl.append('.cons (fun _ => (fixedList_tame _ _).fld)')
                continue
            if kind in ('matr', 'rprb'):
                gp = {'matr': 'material_gp', 'rprb': 'probe_gp'}[kind]
                lines.append(f'.cons (.gfld {gp} fun _ _ h hv => {tup({f: f"(push_list ({acc(idx[f])}) hv)"})})')
                tl.append(f'.cons (fun _ => {kind}_tame.fld)')
                continue
            if kind in ('colors', 'code'):
                gp, pred, tame = kind + '_gp', True, kind + '_tame'
            else:
                _, _, _, tame, pred, gp, _, _ = info(kind)
            r = tup({f: '.some hv' if opt else 'hv'}) if pred else 'h'
            lines.append(f'.cons (.gfld {gp} fun _ _ h {"hv" if pred else "_"} => {r})')
            tl.append(f'.cons (fun _ => {tame}.fld)')
        v = ' {v : UInt32}' if c == 'A' else ''
        vv = ' v' if c == 'A' else ''
        aa = f'(GameData.arms{c}{vv})'
        o.append(f'theorem GameData.arms{c}_inv{v} : GArmsInv GameData.Fields {aa} := by\n  unfold GameData.arms{c}\n  exact ' + ' <|\n    '.join(lines) + ' .nil\n')
        o.append(f'theorem GameData.arms{c}_tame{v} : ArmsTame {aa} := by\n  unfold GameData.arms{c}\n  exact ' + ' <|\n    '.join(tl) + ' .nil\n')
    for c, N, _, d in CHUNKS:
        fs = set(FIELDS[c])
        lines = []
        for tag, kind, f, opt, line in g.arms:
            if f not in fs: continue
            if kind == 'efss': lines.append('.cons efss_beta')
            elif kind in ('mate', 'phma'): lines.append('.cons (.gfldS (fun _ => GP.any) fun _ _ h _ => h)')
            else: lines.append('.cons (.gfld GP.any fun _ _ h _ => h)')
        vv = ' v' if c == 'A' else ''
        o.append(f'theorem GameData.arms{c}_beta {{v : UInt32}} : GArmsInv (BetaOk v) (GameData.arms{c}{vv}) := by\n  unfold GameData.arms{c}\n  exact ' + ' <|\n    '.join(lines) + ' .nil\n')
    o.append('''theorem GameData.default_fields : GameData.default.Fields :=
  ⟨''' + ', '.join('.none' if opt else {'colors': 'rfl', 'mate': '(by intro m hm; cases hm)', 'code': '⟨[], by decide, by decide, by decide⟩', 'quant8': '⟨255, by decide, by decide +kernel⟩'}.get(k, 'by decide') for f, p, opt, k in CONDS) + '⟩\n')
    o.append('end Vpin\n')
    return '\n'.join(o)

if __name__ == '__main__':
    open(OUT + 'Model/GameData.lean', 'w').write(gen_model())
    open(OUT + 'Spec/GameData.lean', 'w').write(gen_spec())
    open(OUT + 'Lemmas/GameData.lean', 'w').write(gen_lemmas())
    for n, c, ops in PARTS: print(n, len(ops))
    print(len(CONDS), [c[0] for c in CONDS])
    tags = [a[0] for a in g.arms]
    assert len(set(tags)) == len(tags)
    print(set(tags) ^ {o[1] for o in g.ops})
