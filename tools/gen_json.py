#!/usr/bin/env python3
"""Generate the JSON forms of the game items from /repo.

Model/ItemJson.lean   the fields of every JSON structure, reader and writer
Spec/ItemJson.lean    which items their JSON form can hold
Lemmas/ItemJson.lean  reading back what was written
"""
import os, re, sys
sys.path.insert(0, os.path.dirname(__file__))
from json_ir import *
from gen_enums import all_enums
from items_ir import *

OUT = os.path.join(os.path.dirname(os.path.abspath(__file__)), '../lean/Verif/')
STEMS = 'dragpoint wall flipper timer plunger textbox bumper trigger light kicker decal gate spinner ramp reel lightsequencer primitive flasher rubber hittarget ball partgroup'.split()
ENUMS = {e.name for e in all_enums()}
WRAP = {e.name for e in all_enums() if e.of_default[0] == 'wrap'}
SHARED = ['is_locked', 'editor_layer', 'editor_layer_name', 'editor_layer_visibility', 'part_group_name']
NOSHARED = {'LightSequencer', 'PartGroup', 'DragPoint'}

# type: codec, its lemma, predicate
T = {
    'f32': ('jF32', 'jF32_ok', 'PlainF32 keeps'),
    'bool': ('jBool', 'jBool_ok', None),
    'String': ('jStr', 'jStr_ok', None),
    'u32': ('jU32', 'jU32_ok', None),
    'i32': ('jI32', 'jI32_ok', None),
    'Vertex2D': ('jVertex2D', 'jVertex2D_ok', 'Vertex2D.JsonOk keeps'),
    'Vertex3D': ('jVertex3D', 'jVertex3D_ok', 'Vertex3D.JsonOk keeps'),
    'Color': ('jColor', 'jColor_ok', None),
    'FontJson': ('jFont', 'jFont_ok', None),
    'F32WithNanInf': ('jNanInf', 'jNanInf_ok', 'AnyF32 keeps'),
    'Vec<DragPoint>': ('(jVec jDragPoint)', '(jVec_ok jDragPoint_ok)', 'ALLDP'),
}
for e in ENUMS:
    T[e] = (f'⟨{e}.toJ, {e}.ofJ⟩', f'{e}.codec_ok', f'{e}.WF' if e in WRAP else None)

REG_F = {  # conversions other than a copy, checked literally
    ('Bumper', 'ring_drop_offset'): ('bumper.ring_drop_offset.map(F32WithNanInf::from)', 'bumper_json.ring_drop_offset.map(f32::from)'),
    ('Decal', 'font'): ('FontJson::from_font(&decal.font)', 'self.font.to_font()'),
    ('TextBox', 'font'): ('FontJson::from_font(&textbox.font)', 'self.font.to_font()'),
    ('Light', 'fade_speed_up'): ('light.fade_speed_up.into()', 'self.fade_speed_up.into()'),
    ('Light', 'fade_speed_down'): ('light.fade_speed_down.into()', 'self.fade_speed_down.into()'),
}

def check(it):
    names = [f for f, _, _ in it.fields]
    assert sorted(f for f, _ in it.frm[0]) == sorted(names), it.name
    for f, e in it.frm[0]:
        assert re.fullmatch(r'\w+\.%s(\.clone\(\))?' % f, e) or REG_F.get((it.name, f), ('',))[0] == e, (it.name, f, e)
    it.base = {}
    for f, e in it.to[0]:
        if f in names:
            assert re.fullmatch(r'\w+\.%s(\.clone\(\))?' % f, e) or REG_F.get((it.name, f), ('', ''))[1] == e, (it.name, f, e)
        else:
            assert e in ('None', 'false'), (it.name, f, e)
            it.base[f] = {'None': 'none', 'false': 'false'}[e]

def parse_field(it, f, t, attrs):
    """kind, names, codec, lemma, predicate"""
    names, kind = [f], 'req'
    for a in attrs:
        if 'flatten' in a: return ('timer', None, None, None, None)
        if 'skip_serializing_if' in a: kind = 'optSkip'; assert t.startswith('Option<')
        elif (m := re.fullmatch(r'#\[serde\(rename = "(\w+)", alias = "(\w+)"\)\]', a)): names = [m.group(1), m.group(2)]
        elif (m := re.fullmatch(r'#\[serde\(alias = "(\w+)"\)\]', a)): names = [f, m.group(1)]
        else: raise Exception(a)
    if t == '[f32; 9]': return ('array9', names, None, None, None)
    m = re.fullmatch(r'Option<(.*)>', t)
    if m:
        if kind == 'req': kind = 'opt'
        t = m.group(1)
    c, l, p = T[t]
    return (kind, names, c, l, p)

def accessor(it, f):
    if it.name not in NOSHARED and f in SHARED:
        return (f'(·.shared.{f})', f'fun v s => {{ s with shared := {{ s.shared with {f} := v }} }}',
                lambda v: f'fun b => {{ b with shared := {{ b.shared with {f} := {v} }} }}', f's.shared.{f}')
    return (f'(·.{f})', f'fun v s => {{ s with {f} := v }}', lambda v: f'fun b => {{ b with {f} := {v} }}', f's.{f}')

def keys(names): return '[' + ', '.join(f'key!"{n}"' for n in names) + ']'

def gen():
    items = [load(s) for s in STEMS]
    for it in items: check(it)
    M = [''.join(f'import Verif.Model.Items.{it.name}\n' for it in items) + 'import Verif.Model.GameItem\nimport Verif.Model.JsonCodec\n'
         '/-\nThe JSON forms of the game items: `XJson` of /repo/src/vpx/gameitem/*.rs with the conversions from and to `X`.\n'
         'Generated by tools/gen_json.py from the source; each definition cites what it models.\n-/\nnamespace Vpin\n']
    M.append('''/-- `rot_and_tra: [f32; 9]` of `PrimitiveJson`: an array of nine numbers, /repo/src/vpx/gameitem/primitive.rs:470 -/
def rotAndTraField : JField Primitive where
  names := [key!"rot_and_tra"]
  get s := some ((jVec jF32).toJ [s.rot_and_tra0, s.rot_and_tra1, s.rot_and_tra2, s.rot_and_tra3, s.rot_and_tra4,
    s.rot_and_tra5, s.rot_and_tra6, s.rot_and_tra7, s.rot_and_tra8])
  set | none, _ => .error .io
      | some j, s => match (jVec jF32).ofJ j with
        | .ok [a0, a1, a2, a3, a4, a5, a6, a7, a8] =>
          .ok { s with rot_and_tra0 := a0, rot_and_tra1 := a1, rot_and_tra2 := a2, rot_and_tra3 := a3,
                       rot_and_tra4 := a4, rot_and_tra5 := a5, rot_and_tra6 := a6, rot_and_tra7 := a7,
                       rot_and_tra8 := a8 }
        | .ok _ => .error .io
        | .error e => .error e
''')
    S = ['import Verif.Model.GameItem\nimport Verif.Spec.Items\nimport Verif.Spec.Json\n'
         '/-\nWhich game items their JSON form can hold: numbers in plain fields are finite and kept by the JSON text. All\n'
         'other fields are unrestricted. Generated by tools/gen_json.py.\n-/\nnamespace Vpin\n']
    L = ['import Verif.Model.ItemJson\nimport Verif.Spec.ItemJson\nimport Verif.Lemmas.JsonCodec\nimport Verif.Lemmas.JsonEnums\n'
         '/-! Helper lemmas: reading game items back from their JSON form. Generated by tools/gen_json.py. -/\nnamespace Vpin\n']
    L.append('''theorem rotAndTra_ok {keeps : F32 → Prop} {s : Primitive}
    (h : ∀ x ∈ [s.rot_and_tra0, s.rot_and_tra1, s.rot_and_tra2, s.rot_and_tra3, s.rot_and_tra4, s.rot_and_tra5,
      s.rot_and_tra6, s.rot_and_tra7, s.rot_and_tra8], PlainF32 keeps x) :
    FieldOK keeps s rotAndTraField fun b =>
      { b with rot_and_tra0 := s.rot_and_tra0, rot_and_tra1 := s.rot_and_tra1, rot_and_tra2 := s.rot_and_tra2,
               rot_and_tra3 := s.rot_and_tra3, rot_and_tra4 := s.rot_and_tra4, rot_and_tra5 := s.rot_and_tra5,
               rot_and_tra6 := s.rot_and_tra6, rot_and_tra7 := s.rot_and_tra7, rot_and_tra8 := s.rot_and_tra8 } where
  back b := by
    show (match (jVec jF32).ofJ ((jVec jF32).toJ [_, _, _, _, _, _, _, _, _]) with | .ok [_, _, _, _, _, _, _, _, _] => _ | .ok _ => _ | .error e => _) = _
    rw [(jVec_ok jF32_ok).back _ h]
  valid j e := by cases e; exact (jVec_ok jF32_ok).valid _ h
''')
    S2 = []
    for it in items:
        X = it.name
        model, spec, puts, oks = [], [], [], []
        segs = [[]]   # segments separated by the flattened timer
        pseg, oseg = [[]], [[]]
        for f, t, attrs in it.fields:
            kind, names, c, l, p = parse_field(it, f, t, attrs)
            if kind == 'timer':
                segs += [None, []]; pseg += [None, []]; oseg += [None, []]
                continue
            if kind == 'array9':
                segs[-1].append('rotAndTraField')
                rs = [f'rot_and_tra{i}' for i in range(9)]
                pseg[-1].append('fun b => { b with ' + ', '.join(f'{r} := s.{r}' for r in rs) + ' }')
                oseg[-1].append('(rotAndTra_ok h.rot_and_tra)')
                spec.append(f'  rot_and_tra : ∀ x ∈ [' + ', '.join(f's.{r}' for r in rs) + '], PlainF32 keeps x')
                continue
            g, pu, pv, val = accessor(it, f)
            segs[-1].append(f'.{kind} {keys(names)} {c} {g} {pu}')
            pseg[-1].append(pv(val))
            if p is None: arg = 'trivial' if kind == 'req' else '(fun _ _ => trivial)'
            else:
                arg = f'h.{f}'
                if p == 'ALLDP':
                    spec.append(f'  {f} : ∀ p ∈ {val}, DragPoint.JsonOk keeps p')
                elif kind == 'req': spec.append(f'  {f} : {p} {val}')
                else: spec.append(f'  {f} : OptP ({p}) {val}' if ' ' in p else f'  {f} : OptP {p} {val}')
            oseg[-1].append(f'({kind}_ok {l} {arg})')
        def join(ss, timer, sep):
            parts = [(timer if q is None else '[' + sep.join(q) + ']') for q in ss]
            r = parts[-1]
            for q in reversed(parts[:-1]): r = f'List.append {q if q[0] == "[" else "(" + q + ")"}\n  ({r})' if r[0] != '[' else f'List.append {q if q[0] == "[" else "(" + q + ")"}\n  {r}'
            return r
        M.append(f'/-- `{X}Json`, {it.cite}, filled by {it.frm[1]} and read by\n{it.to[1]} -/')
        M.append(f'def {X}.jsonFields : List (JField {X}) :=\n  ' + join(segs, f'timerFields {X}.timerL', ',\n   ') + '\n')
        b = [(k, v) for k, v in it.base.items()]
        if b:
            sh = [(k, v) for k, v in b if X not in NOSHARED and k in SHARED]
            rest = [(k, v) for k, v in b if not (X not in NOSHARED and k in SHARED)]
            assert X in NOSHARED or len(sh) == 4, (X, sh)
            ups = ([('shared', '{ SharedAttrs.default with ' + ', '.join(f'{k} := {v}' for k, v in sh) + ' }')] if sh else []) + rest
            M.append(f'/-- the fields that are not in the JSON form, {it.to[1]} -/')
            M.append(f'def {X}.jsonBase : {X} := {{ {X}.default with ' + ', '.join(f'{k} := {v}' for k, v in ups) + ' }\n')
            un = ([('shared', '{ s.shared with ' + ', '.join(f'{k} := {v}' for k, v in sh) + ' }')] if sh else []) + rest
            S.append(f'/-- a {X} without what its JSON form does not hold -/')
            S.append(f'def {X}.jsonPart (s : {X}) : {X} := {{ s with ' + ', '.join(f'{k} := {v}' for k, v in un) + ' }\n')
        else:
            M.append(f'/-- all fields are in the JSON form -/\ndef {X}.jsonBase : {X} := {X}.default\n')
            S.append(f'/-- all of a {X} is in its JSON form -/\ndef {X}.jsonPart (s : {X}) : {X} := s\n')
        M.append(f'def j{X} : Codec {X} := jStruct {X}.jsonFields {X}.jsonBase\n')
        if spec:
            S.append(f'structure {X}.JsonOk (keeps : F32 → Prop) (s : {X}) : Prop where\n' + '\n'.join(spec) + '\n')
        else:
            S.append(f'def {X}.JsonOk (_ : F32 → Prop) (_ : {X}) : Prop := True\n')
        tput = f'[fun b => {X}.timerL.put {{ {X}.timerL.get b with is_enabled := ({X}.timerL.get s).is_enabled }} b,\n   fun b => {X}.timerL.put {{ {X}.timerL.get b with interval := ({X}.timerL.get s).interval }} b]'
        L.append(f'def {X}.jsonPuts (s : {X}) : List ({X} → {X}) :=\n  ' + join(pseg, tput, ',\n   ') + '\n')
        def chain(q):
            r = '.nil'
            for o in reversed(q): r = f'(.cons {o}\n    {r})'
            return r
        term = None
        parts = [('timer_ok' if q is None else chain(q)) for q in oseg]
        term = parts[-1]
        for q in reversed(parts[:-1]): term = f'(.append {q}\n    {term})'
        hn = 'h' if spec else '_h'
        L.append(f'theorem {X}.json_fields {{keeps : F32 → Prop}} {{s : {X}}} ({hn} : s.JsonOk keeps) :\n    FieldsOK keeps s {X}.jsonFields {X}.jsonPuts.{{}} :=\n  {term}\n'.replace(f'{X}.jsonPuts.{{}}', f's.jsonPuts'))
        L.append(f'theorem {X}.json_names : NamesOK {X}.jsonFields := by decide +kernel\n')
        L.append(f'theorem {X}.json_puts (s : {X}) : s.jsonPuts.foldl (fun b p => p b) {X}.jsonBase = s.jsonPart := rfl\n')
        L.append(f'theorem {X}.json_back {{keeps : F32 → Prop}} {{s : {X}}} (h : s.JsonOk keeps) :\n    j{X}.ofJ (j{X}.toJ s) = .ok s.jsonPart :=\n  (readJ_writeJ (json_fields h) json_names).trans (congrArg Except.ok s.json_puts)\n')
        L.append(f'theorem {X}.json_valid {{keeps : F32 → Prop}} {{s : {X}}} (h : s.JsonOk keeps) : (j{X}.toJ s).Valid keeps :=\n  writeJ_valid (json_fields h) json_names\n')
        if spec:
            sm = []
            for q in spec:
                f, ty = q.strip().split(' : ', 1)
                if f == 'drag_points': pr = 'fun _ hp => List.mem_singleton.1 hp ▸ DragPoint.sample_json'
                elif f == 'rot_and_tra': pr = 'by decide'
                elif f.startswith('disable_lighting'): pr = 'by decide +kernel'
                else: pr = 'by decide'
                sm.append(f'  {f} := {pr}')
            S2.append(f'theorem {X}.sample_json : {X}.sample.JsonOk fun _ => True where\n' + '\n'.join(sm) + '\n')
        else: S2.append(f'theorem {X}.sample_json : {X}.sample.JsonOk fun _ => True := trivial\n')
        if X == 'DragPoint':
            L.append('theorem jDragPoint_ok {keeps : F32 → Prop} : CodecOK keeps jDragPoint (DragPoint.JsonOk keeps) where\n  back _ h := DragPoint.json_back h\n  valid _ h := DragPoint.json_valid h\n  notNull _ _ e := by cases e\n')
    S += S2
    for n, o in (('Model', M), ('Spec', S), ('Lemmas', L)):
        open(OUT + n + '/ItemJson.lean', 'w').write('\n'.join(o) + '\nend Vpin\n')
    E = ['import Verif.Lemmas.JsonCodec\nimport Verif.Model.Enums\nimport Verif.Props.Enums\n/-! Helper lemmas: the JSON forms of the enumerations. Generated by tools/gen_json.py. -/\nnamespace Vpin\n']
    for e in all_enums():
        N = e.name
        if N in ('DmdStyle', 'DisplayStyle', 'SegStyle', 'SegFamily', 'VisibilityMask'): continue
        if N in WRAP:
            E.append(f'''theorem {N}.codec_ok {{keeps : F32 → Prop}} : CodecOK keeps ⟨{N}.toJ, {N}.ofJ⟩ {N}.WF where
  back v h := {N}.jsonBack v h
  valid v _ := by
    cases v
    case {e.variants[-1][0]} n _ => exact .num _ (by have := n.toNat_lt; omega)
    all_goals exact .str _
  notNull v _ e := by cases v <;> cases e
''')
        else:
            E.append(f'''theorem {N}.codec_ok {{keeps : F32 → Prop}} : CodecOK keeps ⟨{N}.toJ, {N}.ofJ⟩ AnyP where
  back v _ := {N}.jsonNames.back v
  valid v _ := by cases v <;> exact .str _
  notNull v _ e := by cases v <;> cases e
''')
    open(OUT + 'Lemmas/JsonEnums.lean', 'w').write('\n'.join(E) + '\nend Vpin\n')

def gen_enum():
    src = open('/repo/src/vpx/gameitem.rs').read()
    body, end = block(src, src.index('pub enum GameItemEnum'))
    kinds = re.findall(r'^\s+(\w+)\(\w+::(\w+)\),', body, re.M)
    lc = lambda k: k[0].lower() + k[1:]
    a = src[:src.index('pub enum GameItemEnum')].count('\n') - 1
    cite = f'/repo/src/vpx/gameitem.rs:{a}-{src[:end].count(chr(10)) + 1}'
    M = ['import Verif.Model.ItemJson\nimport Verif.Model.Gltf\n/-\nThe JSON form of game items of any kind and the item index of an expanded table. Generated by tools/gen_json.py.\n-/\nnamespace Vpin\n']
    M.append('''/-- the name of a record as a text of four characters -/
def tagText (t : Tag) : Str := [0, 1, 2, 3].map fun i => Char.ofNat (byteAt t i).toNat

/-- the record of this name; names that are not four Latin-1 characters are not modelled -/
def tagOfText : Str → Res Tag
  | [a, b, c, d] =>
    if a.toNat < 256 ∧ b.toNat < 256 ∧ c.toNat < 256 ∧ d.toNat < 256 then
      .ok (a.toNat + 256 * (b.toNat + 256 * (c.toNat + 256 * d.toNat)))
    else .error .io
  | _ => .error .io

/-- one of the `fields: Vec<(String, Vec<u8>)>` of `GenericJson`, /repo/src/vpx/gameitem/generic.rs:16-19 -/
def jGenericField : Codec (Tag × Bytes) where
  toJ f := .arr [.str (tagText f.1), (jVec jU8).toJ f.2]
  ofJ | .arr [.str s, j] =>
        match tagOfText s with
        | .error e => .error e
        | .ok t => (fun bs => (t, bs)) <$> (jVec jU8).ofJ j
      | _ => .error .io

/-- `GenericJson`, /repo/src/vpx/gameitem/generic.rs:15-46 -/
def Generic.jsonFields : List (JField Generic) :=
  [.req [key!"name"] jStr (·.name) fun v s => { s with name := v },
   .req [key!"fields"] (jVec jGenericField) (·.fields) fun v s => { s with fields := v }]

def jGeneric : Codec Generic := jStruct Generic.jsonFields Generic.init
''')
    M.append(f'/-- `Serialize` of `GameItemEnum` (derived): an object with the name of the variant, {cite} -/')
    M.append('def GameItemEnum.toJ : GameItemEnum → J')
    for k, _ in kinds: M.append(f'  | .{lc(k)} x => .obj [(key!"{k}", j{k}.toJ x)]')
    M.append('  | .generic t x => .obj [(key!"Generic", .arr [jU32.toJ t, jGeneric.toJ x])]\n')
    M.append('/-- the two values of the variant `Generic` -/\ndef genericOfJ : J → Res GameItemEnum')
    M.append('  | .arr [t, x] =>\n    match jU32.ofJ t with\n    | .error e => .error e\n    | .ok t => GameItemEnum.generic t <$> jGeneric.ofJ x\n  | _ => .error .io\n')
    M.append(f'/-- `Deserialize` of `GameItemEnum` (derived), {cite} -/')
    M.append('def GameItemEnum.ofJ : J → Res GameItemEnum\n  | .obj [(k, j)] =>')
    for i, (k, _) in enumerate(kinds): M.append(f'    {"else " if i else ""}if k = key!"{k}" then GameItemEnum.{lc(k)} <$> j{k}.ofJ j')
    M.append('    else if k = key!"Generic" then genericOfJ j\n    else .error .io\n  | _ => .error .io\n')
    M.append('''/-- `GameItemInfoJson`, the entry of an item in the index, /repo/src/vpx/expanded/gameitems.rs:17-32 -/
structure GameItemInfo where
  file_name : Str
  is_locked : Option Bool
  editor_layer : Option UInt32
  editor_layer_name : Option Str
  editor_layer_visibility : Option Bool
  deriving DecidableEq, Repr

def GameItemInfo.jsonFields : List (JField GameItemInfo) :=
  [.req [key!"file_name"] jStr (·.file_name) fun v s => { s with file_name := v },
   .optSkip [key!"is_locked"] jBool (·.is_locked) fun v s => { s with is_locked := v },
   .optSkip [key!"editor_layer"] jU32 (·.editor_layer) fun v s => { s with editor_layer := v },
   .optSkip [key!"editor_layer_name"] jStr (·.editor_layer_name) fun v s => { s with editor_layer_name := v },
   .optSkip [key!"editor_layer_visibility"] jBool (·.editor_layer_visibility)
     fun v s => { s with editor_layer_visibility := v }]

def jGameItemInfo : Codec GameItemInfo := jStruct GameItemInfo.jsonFields ⟨[], none, none, none, none⟩

/-- the index entry of an item, /repo/src/vpx/expanded/gameitems.rs:78-86 -/
def GameItemEnum.info (item : GameItemEnum) (file : Str) : GameItemInfo where
  file_name := file
  is_locked := item.is_locked
  editor_layer := item.editor_layer
  editor_layer_name := item.editor_layer_name
  editor_layer_visibility := item.editor_layer_visibility

/-- restoring what is kept in the index, /repo/src/vpx/expanded/gameitems.rs:193-198 -/
def GameItemInfo.restore (i : GameItemInfo) (item : GameItemEnum) : GameItemEnum :=
  (((item.set_locked i.is_locked).set_editor_layer i.editor_layer).set_editor_layer_name
    i.editor_layer_name).set_editor_layer_visibility i.editor_layer_visibility

/-- `read_json(path)`: the parsed value, or the error of the parser, /repo/src/vpx/expanded/util.rs:22-50 -/
def readJson {α : Type} (T : JsonText) (c : Codec α) (bs : Bytes) : Res α :=
  match T.parse bs with
  | none => .error .io
  | some j => c.ofJ j

/-- `serde_json::to_vec_pretty`, `to_writer_pretty` -/
def writeJson {α : Type} (T : JsonText) (c : Codec α) (a : α) : Bytes := T.print (c.toJ a)

def jGameItem : Codec GameItemEnum := ⟨GameItemEnum.toJ, GameItemEnum.ofJ⟩
''')
    open(OUT + 'Model/GameItemJson.lean', 'w').write('\n'.join(M) + '\nend Vpin\n')
    S = ['import Verif.Spec.ItemJson\n/-\nWhich items the expanded form can hold, and what of an item is in its JSON file. Generated by tools/gen_json.py.\n-/\nnamespace Vpin\n']
    S.append('/-- record names of items of unknown kinds have four bytes -/\ndef Generic.JsonOk (s : Generic) : Prop := ∀ f ∈ s.fields, f.1 < 2 ^ 32\n')
    S.append('/-- all numbers in plain fields are finite and kept by the JSON text -/\ndef GameItemEnum.JsonOk (keeps : F32 → Prop) : GameItemEnum → Prop')
    for k, _ in kinds: S.append(f'  | .{lc(k)} x => x.JsonOk keeps')
    S.append('  | .generic _ x => x.JsonOk\n')
    S.append('/-- the item as it is in its JSON file: without lock, layer and mesh -/\ndef GameItemEnum.jsonPart : GameItemEnum → GameItemEnum')
    for k, _ in kinds: S.append(f'  | .{lc(k)} x => .{lc(k)} x.jsonPart')
    S.append('  | .generic t x => .generic t x\n')
    S.append('''/-- the item without the mesh and the animation frames of a primitive, which have their own files -/
def GameItemEnum.withoutMesh : GameItemEnum → GameItemEnum
  | .primitive x => .primitive { x with
      num_vertices := none, compressed_vertices_len := none, compressed_vertices_data := none,
      num_indices := none, compressed_indices_len := none, compressed_indices_data := none,
      compressed_animation_vertices_len := none, compressed_animation_vertices_data := none }
  | g => g
''')
    open(OUT + 'Spec/GameItemJson.lean', 'w').write('\n'.join(S) + '\nend Vpin\n')
    L = ['import Verif.Model.GameItemJson\nimport Verif.Spec.GameItemJson\nimport Verif.Lemmas.ItemJson\n/-! Helper lemmas: JSON forms of game items of any kind. Generated by tools/gen_json.py. -/\nnamespace Vpin\n']
    L.append('''theorem latin1_toNat : ∀ n : Fin 256, (Char.ofNat n.val).toNat = n.val := by decide +kernel

theorem tagText_back (t : Nat) (h : t < 2 ^ 32) : tagOfText (tagText t) = .ok t := by
  have hc : ∀ i, (Char.ofNat (byteAt t i).toNat).toNat = t / 256 ^ i % 256 := by
    intro i
    have hb : (byteAt t i).toNat = t / 256 ^ i % 256 := by unfold byteAt; simp
    rw [hb]
    exact latin1_toNat ⟨_, Nat.mod_lt _ (by decide)⟩
  unfold tagText
  show tagOfText [_, _, _, _] = _
  unfold tagOfText
  dsimp only
  rw [hc 0, hc 1, hc 2, hc 3, if_pos (by omega)]
  have : t / 256 ^ 0 % 256 + 256 * (t / 256 ^ 1 % 256 + 256 * (t / 256 ^ 2 % 256 + 256 * (t / 256 ^ 3 % 256))) = t := by
    omega
  rw [this]

theorem jGenericField_ok {keeps : F32 → Prop} : CodecOK keeps jGenericField (fun f => f.1 < 2 ^ 32) where
  back f h := by
    unfold jGenericField
    dsimp only
    rw [tagText_back _ h]
    dsimp only
    rw [(jVec_ok (keeps := keeps) jU8_ok).back f.2 fun _ _ => trivial]
    rfl
  valid f h := .arr _ (by
    intro j hj
    rcases List.mem_cons.mp hj with rfl | hj
    · exact .str _
    · rw [List.mem_singleton.mp hj]
      exact (jVec_ok jU8_ok).valid _ fun _ _ => trivial)
  notNull f _ e := by cases e

theorem jGeneric_ok {keeps : F32 → Prop} : CodecOK keeps jGeneric Generic.JsonOk :=
  jStruct_ok (ps := fun s => [_, _]) (by decide +kernel)
    (fun s h => .cons (req_ok jStr_ok trivial) (.cons (req_ok (jVec_ok jGenericField_ok) h) .nil)) fun _ => rfl
''')
    for k, _ in kinds:
        L.append(f'theorem ofJ_{lc(k)} (j : J) : GameItemEnum.ofJ (.obj [(key!"{k}", j)]) = GameItemEnum.{lc(k)} <$> j{k}.ofJ j := rfl')
    L.append('theorem ofJ_generic (j : J) : GameItemEnum.ofJ (.obj [(key!"Generic", j)]) = genericOfJ j := rfl\n')
    for k, _ in kinds:
        L.append(f'theorem jsonBack_{lc(k)} {{keeps : F32 → Prop}} (x : {k}) (h : x.JsonOk keeps) :\n    GameItemEnum.ofJ (GameItemEnum.toJ (.{lc(k)} x)) = .ok (GameItemEnum.jsonPart (.{lc(k)} x)) :=\n  (ofJ_{lc(k)} _).trans (by rw [{k}.json_back (keeps := keeps) h]; rfl)\n')
    L.append('''theorem genericOfJ_ok {a b : J} {t : UInt32} {x : Generic} (ha : jU32.ofJ a = .ok t) (hb : jGeneric.ofJ b = .ok x) :
    genericOfJ (.arr [a, b]) = .ok (.generic t x) := by
  unfold genericOfJ
  dsimp only
  rw [ha, hb]
  rfl

theorem jsonBack_generic {keeps : F32 → Prop} (t : UInt32) (x : Generic) (h : x.JsonOk) :
    GameItemEnum.ofJ (GameItemEnum.toJ (.generic t x)) = .ok (GameItemEnum.jsonPart (.generic t x)) :=
  (ofJ_generic _).trans (genericOfJ_ok ((jU32_ok (keeps := keeps)).back t trivial) ((jGeneric_ok (keeps := keeps)).back x h))
''')
    L.append('theorem GameItemEnum.json_back {keeps : F32 → Prop} {g : GameItemEnum} (h : g.JsonOk keeps) :\n    GameItemEnum.ofJ g.toJ = .ok g.jsonPart := by\n  cases g with')
    for k, _ in kinds:
        L.append(f'  | {lc(k)} x => exact jsonBack_{lc(k)} x h')
    L.append('  | generic t x => exact jsonBack_generic (keeps := keeps) t x h\n')
    L.append('theorem GameItemEnum.json_valid {keeps : F32 → Prop} : ∀ {g : GameItemEnum}, g.JsonOk keeps → g.toJ.Valid keeps')
    for k, _ in kinds: L.append(f'  | .{lc(k)} x, h => .obj _ (by simp) (by intro m hm; rw [List.mem_singleton.mp hm]; exact {k}.json_valid (s := x) h)')
    L.append('''  | .generic t x, h => .obj _ (by simp) (by
    intro m hm; rw [List.mem_singleton.mp hm]
    refine .arr _ fun j hj => ?_
    rcases List.mem_cons.mp hj with rfl | hj
    · exact jU32_ok.valid t trivial
    · rw [List.mem_singleton.mp hj]; exact jGeneric_ok.valid x h)

theorem jGameItemInfo_ok {keeps : F32 → Prop} : CodecOK keeps jGameItemInfo AnyP :=
  jStruct_ok (ps := fun s => [_, _, _, _, _]) (by decide +kernel)
    (fun s _ => .cons (req_ok jStr_ok trivial) (.cons (optSkip_ok jBool_ok fun _ _ => trivial)
      (.cons (optSkip_ok jU32_ok fun _ _ => trivial) (.cons (optSkip_ok jStr_ok fun _ _ => trivial)
        (.cons (optSkip_ok jBool_ok fun _ _ => trivial) .nil))))) fun _ => rfl

theorem JsonText.parse_print_self (T : JsonText) {j : J} (h : j.Valid T.keeps) : T.parse (T.print j) = some j := by
  have := T.parse_print j 0 h
  simpa using this

theorem readJson_writeJson (T : JsonText) {α : Type} {c : Codec α} {P : α → Prop} (hc : CodecOK T.keeps c P) {a : α}
    (h : P a) : readJson T c (writeJson T c a) = .ok a := by
  unfold readJson writeJson
  rw [T.parse_print_self (hc.valid a h)]
  exact hc.back a h

theorem readJson_item (T : JsonText) {g : GameItemEnum} (h : g.JsonOk T.keeps) :
    readJson T jGameItem (writeJson T jGameItem g) = .ok g.jsonPart := by
  unfold readJson writeJson
  rw [T.parse_print_self (j := jGameItem.toJ g) (GameItemEnum.json_valid h)]
  exact GameItemEnum.json_back h

theorem restore_info (g : GameItemEnum) (file : Str) : (g.info file).restore g.jsonPart = g.withoutMesh := by
  cases g <;> rfl
''')
    open(OUT + 'Lemmas/GameItemJson.lean', 'w').write('\n'.join(L) + '\nend Vpin\n')

if __name__ == "__main__":
    gen()
    gen_enum()
