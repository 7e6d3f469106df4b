#!/usr/bin/env python3
"""Generate the model, specification, lemmas and theorems of the game items from /repo.

Model/Items/X.lean   structure, default, match arms of the reader, calls of the writer
Spec/Items.lean      which items the file format can hold
Lemmas/Items/X.lean  reading back what was written; what every reader guarantees
Props/Items.lean     the theorems, one pair per item kind
"""
import os, sys
sys.path.insert(0, os.path.dirname(__file__))
from items_ir import *
from gen_enums import all_enums

OUT = os.path.join(os.path.dirname(os.path.abspath(__file__)), '../lean/Verif/')
WRAP = {e.name for e in all_enums() if e.of_default[0] == 'wrap'}

# kind: (type, getter, writer, lemma stem, predicate, sample value, sample proof)
K = {
    'f32': ('getF32', 'wF32', 'f32', None, '0x3fc00000', None),
    'bool': ('getBool', 'wBool', 'bool', None, 'true', None),
    'u32': ('getU32', 'wU32', 'u32', None, '7', None),
    'i32': ('getI32', 'wI32', 'i32', None, '(-7)', None),
    'string': ('getString', 'wString', 'string', 'Text', '"caf\\u00e9 1".toList', 'by decide'),
    'wide': ('getWide', 'wWide', 'wide', 'WText', '"na\\u03bcme 😀".toList', 'by decide'),
    'vertex2d': ('getVertex2D', 'wVertex2D', 'vertex2d', None, '⟨0x3f800000, 0xc0000000⟩', None),
    'vertex3d': ('getVertex3D', 'wVertex3D', 'vertex3d', None, '⟨0x3f800000, 0xc0000000, 0x40400000⟩', None),
    'vertex3du': ('getVertex3DUnpadded', 'wVertex3DUnpadded', 'vertex3du', None, '⟨0x3f800000, 0xc0000000, 0x40400000⟩', None),
    'color': ('getColor', 'wColor', 'color', None, 'Color.rgb 1 2 3', None),
    'font': ('getFont', 'wFont', 'font', 'Font.WF', '{ Font.default with weight := 700 }', 'by decide'),
    'quant8': ('getQuant8', 'wQuant8', 'quant8', 'Level8', '(dequantize8 128)', '⟨128, by decide, rfl⟩'),
    'data': ('getRecordData', 'wData', 'data', 'RecordData', '[1, 2, 3]', 'by decide'),
}

def info(kind):
    """getter, writer, rt, tame, pred, gp, sample, sample proof"""
    if kind.startswith('enum:'):
        n = kind[5:]
        pred = f'{n}.WF' if n in WRAP else None
        e = [e for e in ALLE if e.name == n][0]
        smp = '.' + e.variants[-1][0] + (' 77' if e.variants[-1][1] else '')
        if e.variants[-1][1]: smp = f'({smp})'
        return (f'(getEnum {n}.ofU32)', f'wEnum {n}.toU32', f'{n}.rt', 'enum_tame', pred,
                f'{n}.gp' if pred else 'GP.any', smp, 'by decide' if pred else None)
    g, w, l, p, s, sp = K[kind]
    return (g, w, l + '_rt', l + '_tame', p, (l + '_gp') if p else 'GP.any', s, sp)

ALLE = all_enums()

def header(imports, doc):
    return ''.join(f'import {i}\n' for i in imports) + f'/-\n{doc}\n-/\nnamespace Vpin\n\n'

def upd(f, v):
    return f'{{ s with {f} := {v} }}'

def gen_model(it):
    N = it.name
    imps = ['Verif.Model.Common', 'Verif.Model.Enums']
    if 'drag_points' in it.rust_fields:
        imps.append('Verif.Model.Items.DragPoint')
    o = [header(imps, f'`{N}`, /repo/src/vpx/gameitem/{it.stem}.rs\nGenerated by tools/gen_items.py from the source; each definition cites what it models.')]
    note = ''
    if it.shared:
        note += '\nThe five shared fields are grouped in `shared` (see `SharedAttrs`).'
    if N == 'Primitive':
        note += '\nThe array `rot_and_tra: [f32; 9]` is nine fields.'
    o.append(f'/-- `struct {N}`, {it.struct_cite}{note} -/')
    o.append(f'structure {N} where')
    for f, t, _ in it.fields:
        o.append(f'  {f} : {t}')
    o.append('  deriving DecidableEq, Repr\n')
    o.append(f'/-- `{N}::default`, {it.default_cite} (floating point values as bit patterns) -/')
    o.append(f'def {N}.default : {N} where')
    for f, _, _ in it.fields:
        o.append(f'  {f} := {it.default[f]}')
    o.append('')
    o.append(f'/-- the value the reader starts from, {it.read_cite} -/')
    if it.init:
        o.append(f'def {N}.init : {N} := {{ {N}.default with ' + ', '.join(f'{k} := {v}' for k, v in it.init.items()) + ' }\n')
    else:
        o.append(f'def {N}.init : {N} := {N}.default\n')
    if it.timer:
        o.append(f'/-- the `timer` field -/\ndef {N}.timerL : Lens {N} TimerData := ⟨fun s => s.timer, fun t s => {{ s with timer := t }}⟩\n')
    if it.shared:
        o.append(f'/-- the shared fields -/\ndef {N}.sharedL : Lens {N} SharedAttrs := ⟨fun s => s.shared, fun a s => {{ s with shared := a }}⟩\n')
    extra = ''
    if N == 'DragPoint':
        extra = '\nThe two `get_f32` of the VCEN arm are one `getVertex2D`.'
    if N == 'Primitive':
        extra = '\nThe lists collected for M3AY and M3AX in local variables and stored in the structure after\nthe loop are collected in the structure.'
    o.append(f'/-- match arms of `{N}::biff_read`, {it.read_cite}{extra} -/')
    arms = []
    for tag, kind, f, opt, line in it.arms:
        T = f'tag!"{tag}"'
        if kind == 'marker':
            a = f'({T}, pure)'
        elif kind == 'dragpoints':
            a = f'({T}, fld (getChild (readWith DragPoint.arms DragPoint.init)) fun v s => {{ s with drag_points := s.drag_points ++ [v] }})'
        elif kind == 'timer_enabled':
            a = f'({T}, fld getBool fun v s => {{ s with timer := {{ s.timer with is_enabled := v }} }})'
        elif kind == 'xy':
            a = f'({T}, fld getVertex2D fun v s => {{ s with x := v.x, y := v.y }})'
        elif kind == 'push_u32':
            a = f'({T}, fld getU32 fun v s => {{ s with {f} := some (s.{f}.getD [] ++ [v]) }})'
        elif kind == 'push_data':
            a = f'({T}, fld getRecordData fun v s => {{ s with {f} := some (s.{f}.getD [] ++ [v]) }})'
        else:
            a = f'({T}, fld {info(kind)[0]} fun v s => {upd(f, "some v" if opt else "v")})'
        arms.append(a)
    body = '[' + ',\n   '.join(arms) + ']'
    if it.timer:
        body += f' ++\n  timerArms {N}.timerL'
    if it.shared:
        body += f' ++\n  sharedArms {N}.sharedL'
    o.append(f'def {N}.arms : Handlers {N} :=\n  {body}\n')
    o.append(f'/-- `{N}::biff_read`, {it.read_cite} -/')
    o.append(f'def {N}.read (data : Bytes) : Res {N} := readStruct {N}.arms {N}.init data\n')
    o.append(f'/-- calls made by `{N}::biff_write` before `close(true)`, {it.write_cite} -/')
    segs = []
    for kind, tag, f, opt in it.ops:
        T = f'tag!"{tag}"'
        if kind == 'marker':
            s = f'[wMarker {T}]'
        elif kind == 'dragpoints':
            s = f's.drag_points.flatMap fun p => wNested {T} p.ops'
        elif kind == 'timer':
            s = 's.timer.ops'
        elif kind == 'timer_tmon':
            s = 's.timer.tmonOps'
        elif kind == 'timer_tmin':
            s = 's.timer.tminOps'
        elif kind == 'shared':
            s = 's.shared.ops'
        elif kind == 'xy':
            s = f'[wVertex2D {T} ⟨s.x, s.y⟩]'
        elif kind == 'anim':
            s = 'animOps s.compressed_animation_vertices_len s.compressed_animation_vertices_data'
        elif opt:
            s = f'opt ({info(kind)[1]} {T}) s.{f}'
        else:
            s = f'[{info(kind)[1]} {T} s.{f}]'
        segs.append(s)
    if N == 'Primitive':
        o.insert(-1, '''/-- the M3AY and M3AX records, in pairs, /repo/src/vpx/gameitem/primitive.rs:1100-1111 -/
def animOps : Option (List UInt32) → Option (List Bytes) → List WOp
  | some m3ays, some m3axs =>
    (m3ays.zip m3axs).flatMap fun p => [wU32 tag!"M3AY" p.1, wData tag!"M3AX" p.2]
  | _, _ => []
''')
    o.append(f'def {N}.ops (s : {N}) : List WOp := List.flatten [\n  ' + ',\n  '.join(segs) + ']\n')
    o.append(f'/-- `{N}::biff_write`, {it.write_cite} -/')
    o.append(f'def {N}.write (s : {N}) : Res Bytes := writeBiff s.ops\n')
    o.append('end Vpin\n')
    return '\n'.join(o)

def wf_fields(it):
    """[(field, lean proposition, sample proof)]"""
    out = []
    seen = set()
    for kind, tag, f, opt in it.ops:
        if f in seen:
            continue
        if kind == 'dragpoints':
            out.append((f, 'fields', f'∀ p ∈ s.{f}, p.WF', 'fun _ hp => List.mem_singleton.1 hp ▸ DragPoint.sample_wf'))
        elif kind == 'shared':
            out.append((f, 'fields', 's.shared.WF', '⟨.some (by decide), .some (by decide)⟩'))
        elif kind == 'anim':
            out.append(('animation', 'fields', 'AnimFrames s.compressed_animation_vertices_len s.compressed_animation_vertices_data', '.inr ⟨[3], [[1, 2, 3]], rfl, rfl, rfl, by decide, by decide⟩'))
        elif kind in ('marker', 'timer', 'timer_tmon', 'timer_tmin', 'xy'):
            continue
        else:
            p, sp = info(kind)[4], info(kind)[7]
            if p:
                out.append((f, 'fields', f'OptP {p} s.{f}' if opt else f'{p} s.{f}', f'.some ({sp})' if opt else sp))
        seen.add(f)
    return out

def gen_spec(its):
    o = [header([f'Verif.Model.Items.{i.name}' for i in its] + ['Verif.Spec.Common'],
                'Which game items the file format can hold: text fields are Latin-1 (or any Unicode text for\nwide strings) without NUL and fit in a record, quantised fields hold one of their levels, nested\nparts satisfy the same. All other fields are unrestricted. Generated by tools/gen_items.py.')]
    o.append('''/-- payload of a record of a 32 bit size -/
def RecordData (d : Bytes) : Prop := 4 + d.length < 2 ^ 32

instance (d : Bytes) : Decidable (RecordData d) := inferInstanceAs (Decidable (_ < _))

/-- animation frames of a primitive: none at all, or as many compressed lengths as data blocks, and
at least one -/
def AnimFrames (lens : Option (List UInt32)) (datas : Option (List Bytes)) : Prop :=
  (lens = none ∧ datas = none) ∨
  ∃ ls ds, lens = some ls ∧ datas = some ds ∧ ls.length = ds.length ∧ ls ≠ [] ∧
    ∀ d ∈ ds, RecordData d
''')
    for e in ALLE:
        if e.name in WRAP:
            w = [v for v, x in e.variants if x][0]
            o.append(f'/-- the variant for unknown numbers does not hold a known one -/')
            o.append(f'def {e.name}.WF : {e.name} → Prop\n  | .{w} n => ' + ' ∧ '.join(f'n ≠ {n}' for n, _ in e.of) + f'\n  | _ => True\n')
            o.append(f'instance (v : {e.name}) : Decidable v.WF := by cases v <;> simp only [{e.name}.WF] <;> infer_instance\n')
    for it in its:
        o.append(f'structure {it.name}.WF (s : {it.name}) : Prop where')
        for f, _, p, _ in wf_fields(it):
            o.append(f'  {f} : {p}')
        o.append('')
    for it in its:
        N = it.name
        o.append(f'/-- a {N} with every optional part present, used to show that the theorems are not vacuous -/')
        o.append(f'def {N}.sample : {N} where')
        kinds = {f: (k, opt) for k, t, f, opt in it.ops if f}
        for f, t, rt in it.fields:
            if f == 'shared':
                v = '⟨true, some 3, some "Layer 1".toList, some false, some "Group".toList⟩'
            elif f == 'timer':
                v = '⟨true, 250⟩'
            elif f == 'drag_points':
                v = '[DragPoint.sample]'
            elif f == 'compressed_animation_vertices_len':
                v = 'some [3]'
            elif f == 'compressed_animation_vertices_data':
                v = 'some [[1, 2, 3]]'
            elif N == 'DragPoint' and f in 'xy':
                v = '0x3f800000'
            else:
                k, opt = kinds[f]
                v = info(k)[6]
                if opt:
                    v = f'some {v}' if v[0] in '0123456789(⟨[' or ' ' not in v and '.' not in v[1:] else f'some ({v})'
            o.append(f'  {f} := {v}')
        o.append('')
        wf = wf_fields(it)
        o.append(f'theorem {N}.sample_wf : {N}.sample.WF where')
        for f, _, _, sp in wf:
            o.append(f'  {f} := {sp}')
        o.append('')
    o.append('end Vpin\n')
    return '\n'.join(o)

def gen_enum_lemmas():
    o = [header(['Verif.Lemmas.Inv', 'Verif.Spec.Items'], 'Enumeration fields. Generated by tools/gen_items.py.')]
    for e in ALLE:
        if e.int != 'u32':
            continue
        n = e.name
        if n in WRAP:
            o.append(f'''theorem {n}.ofU32_toU32 (v : {n}) (h : v.WF) : {n}.ofU32 v.toU32 = .ok v := by
  cases v with
  | {[v for v, x in e.variants if x][0]} n =>
    simp only [{n}.WF] at h
    simp [{n}.ofU32, {n}.toU32, h]
  | _ => rfl

theorem {n}.rt : FieldRT (wEnum {n}.toU32) (getEnum {n}.ofU32) {n}.WF := enum_rt {n}.ofU32_toU32

theorem {n}.ofU32_wf (n : UInt32) (v : {n}) (h : {n}.ofU32 n = .ok v) : v.WF := by
  unfold {n}.ofU32 at h
  repeat' split at h
  all_goals cases h
  all_goals simp_all [{n}.WF]

theorem {n}.gp : GP (getEnum {n}.ofU32) {n}.WF := enum_gp {n}.ofU32_wf
''')
        else:
            o.append(f'''theorem {n}.ofU32_toU32 (v : {n}) : {n}.ofU32 v.toU32 = .ok v := by cases v <;> rfl

theorem {n}.rt : FieldRT (wEnum {n}.toU32) (getEnum {n}.ofU32) Any := enum_rt fun v _ => {n}.ofU32_toU32 v
''')
    o.append('end Vpin\n')
    return '\n'.join(o)

def gen_lemmas(it):
    N = it.name
    imps = ['Verif.Lemmas.Enums', 'Verif.Lemmas.Tame', 'Verif.Lemmas.ItemData']
    if 'drag_points' in it.rust_fields:
        imps.append('Verif.Lemmas.Items.DragPoint')
    if N == 'Primitive':
        imps.append('Verif.Lemmas.PrimitiveAnim')
    o = [header(imps, f'`{N}`: reading back what was written, and what the reader guarantees for every input.\nGenerated by tools/gen_items.py.')]
    o.append(f'theorem {N}.reads {{s : {N}}} (h : s.WF) : OReads {N}.arms s.ops {N}.init s := by')
    o.append(f'  unfold {N}.ops')
    cur = {g: f'{N}.init.{g}' for g, _, _ in it.fields}
    law = '⟨fun _ _ => rfl, fun _ _ _ => rfl, fun _ => rfl⟩'
    for kind, tag, f, opt in it.ops:
        if kind == 'marker':
            p = 'OReads.marker rfl'
        elif kind == 'dragpoints':
            p = '''OReads.nestedList (hs' := DragPoint.arms) (u := DragPoint.init) _
    (fun l (s : %s) => { s with drag_points := s.drag_points ++ l }) rfl
    (fun v hv => DragPoint.reads (h.drag_points v hv)) (fun v l s => by simp)
    (fun s => by simp)''' % N
        elif kind == 'timer':
            p = f'timer_reads (L := {N}.timerL) {law} rfl rfl'
        elif kind == 'timer_tmon':
            p = f'tmon_reads (L := {N}.timerL) rfl'
        elif kind == 'timer_tmin':
            p = f'tmin_reads (L := {N}.timerL) rfl'
        elif kind == 'shared':
            p = f'shared_reads (L := {N}.sharedL) {law} h.shared rfl rfl rfl rfl rfl rfl'
        elif kind == 'xy':
            p = 'vertex2d_rt.req trivial rfl'
        elif kind == 'anim':
            p = 'Primitive.anim_reads h.animation rfl rfl'
        else:
            g, w, rt, tame, pred, gp, _, _ = info(kind)
            if opt:
                hp = f'h.{f}' if pred else '(fun _ _ => trivial)'
                p = f'{rt}.opt (fun v (s : {N}) => {upd(f, "v")}) {hp} rfl rfl'
            else:
                hp = f'h.{f}' if pred else 'trivial'
                p = f'{rt}.req {hp} rfl'
        if kind == 'timer' or kind.startswith('timer_t'):
            cur['timer'] = 's.timer'
            if kind == 'timer_tmon':
                cur['timer'] = f'⟨s.timer.is_enabled, {N}.init.timer.interval⟩'
        elif kind == 'xy':
            cur['x'] = 's.x'; cur['y'] = 's.y'
        elif kind == 'anim':
            for k in ('compressed_animation_vertices_len', 'compressed_animation_vertices_data'):
                cur[k] = 's.' + k
        elif kind != 'marker':
            cur[f or kind] = 's.' + (f or kind)
        o.append(f'  refine .segTo ⟨{", ".join(cur[g] for g, _, _ in it.fields)}⟩\n    ({p}) rfl ?_')
    o.append('  exact .done rfl\n')
    # invariant
    wf = wf_fields(it)
    WFN = it.name + '.RInv' if N == 'Primitive' else it.name + '.WF'
    names = [f for f, _, _, _ in wf]
    if N == 'Primitive':
        o.append('/-- what the reader guarantees: as `Primitive.WF`, but the animation frames need not come in pairs -/')
        o.append(f'structure {N}.RInv (s : {N}) : Prop where')
        for f, _, p, _ in wf:
            if f == 'animation':
                o.append('  animation : OptP (fun l => l ≠ []) s.compressed_animation_vertices_len\n  animation_data : OptP (fun l => l ≠ [] ∧ ∀ d ∈ l, RecordData d) s.compressed_animation_vertices_data')
            else:
                o.append(f'  {f} : {p}')
        o.append('')
        i = names.index('animation')
        names = names[:i + 1] + ['animation_data'] + names[i + 1:]
    preds = {}
    def tup(repl):
        return '⟨' + ', '.join(repl.get(n, 'h.' + n) for n in names) + '⟩'
    o.append(f'theorem {N}.arms_inv : ArmsInv {WFN} {N}.arms := by')
    o.append(f'  unfold {N}.arms')
    lines = []
    for tag, kind, f, opt, line in it.arms:
        if kind == 'marker':
            lines.append('.cons .pure')
        elif kind == 'dragpoints':
            r = tup({'drag_points': '(forall_append h.drag_points hv)'})
            lines.append(f'.cons (.fld (getChild_gp (readWith_gp DragPoint.arms_inv DragPoint.init_wf)) fun _ _ h hv => {r})')
        elif kind in ('timer_enabled', 'xy'):
            lines.append(f'.cons (.fld GP.any fun _ _ h _ => {tup({})})')
        elif kind == 'push_u32':
            r = tup({'animation': '(push_ne _ _)'})
            lines.append(f'.cons (.fld GP.any fun _ _ h _ => {r})')
        elif kind == 'push_data':
            r = tup({'animation_data': '(push_data h.animation_data hv)'})
            lines.append(f'.cons (.fld data_gp fun _ _ h hv => {r})')
        else:
            g, w, rt, tame, pred, gp, _, _ = info(kind)
            r = tup({f: '.some hv' if opt else 'hv'}) if pred else tup({})
            lines.append(f'.cons (.fld {gp} fun _ _ h {"hv" if pred else "_"} => {r})')
    body = ' <|\n    '.join(lines) + ' .nil'
    if it.timer and it.shared:
        pass
    parts = ['(' + body + ')']
    if it.timer:
        parts.append(f'(timerArms_inv fun _ _ h => {tup({})})')
    if it.shared:
        parts.append(f'(sharedArms_inv (fun _ h => h.shared) fun _ _ h ha => {tup({"shared": "ha"})})')
    e = parts[0]
    for p in parts[1:]:
        e = f'(.append {e}\n    {p})'
    o.append(f'  exact {e}\n')
    o.append(f'theorem {N}.init_wf : {WFN} {N}.init where')
    for f in names:
        if f == 'animation_data':
            o.append('  animation_data := .none')
            continue
        p = [x for x in wf if x[0] == f][0][2]
        if N == 'Primitive' and f == 'animation':
            o.append('  animation := .none')
        elif p.startswith('OptP'):
            o.append(f'  {f} := .none')
        elif f == 'drag_points':
            o.append(f'  {f} := by intro p hp; cases hp')
        elif f == 'shared':
            o.append(f'  {f} := ⟨.none, .none⟩')
        else:
            o.append(f'  {f} := by decide')
    o.append('')
    # tame
    o.append(f'theorem {N}.arms_tame : ArmsTame {N}.arms := by')
    o.append(f'  unfold {N}.arms')
    lines = []
    for tag, kind, f, opt, line in it.arms:
        if kind == 'marker':
            lines.append('.cons (fun _ => Tame.pure _)')
        elif kind == 'dragpoints':
            lines.append('.cons (fun _ => (getChild_tame (readWith_tame DragPoint.arms_tame _)).fld)')
        else:
            t = {'timer_enabled': 'bool_tame', 'xy': 'vertex2d_tame', 'push_u32': 'u32_tame', 'push_data': 'data_tame'}.get(kind) or info(kind)[3]
            lines.append(f'.cons (fun _ => {t}.fld)')
    parts = ['(' + ' <|\n    '.join(lines) + ' .nil)']
    if it.timer:
        parts.append(f'(timerArms_tame _)')
    if it.shared:
        parts.append(f'(sharedArms_tame _)')
    e = parts[0]
    for p in parts[1:]:
        e = f'(.append {e} {p})'
    o.append(f'  exact {e}\n')
    o.append('end Vpin\n')
    return '\n'.join(o)

def write(path, text):
    p = OUT + path
    os.makedirs(os.path.dirname(p), exist_ok=True)
    if os.path.exists(p) and open(p).read() == text:
        return
    open(p, 'w').write(text)

if __name__ == '__main__':
    its = all_items()
    for it in its:
        write(f'Model/Items/{it.name}.lean', gen_model(it))
        write(f'Lemmas/Items/{it.name}.lean', gen_lemmas(it))
    write('Spec/Items.lean', gen_spec(its))
    write('Lemmas/Enums.lean', gen_enum_lemmas())
