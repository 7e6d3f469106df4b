#!/usr/bin/env python3
"""Generate the JSON forms of game data and materials from /repo.

Model/TableJson.lean, Spec/TableJson.lean, Lemmas/TableJson.lean
"""
import os, re, sys
sys.path.insert(0, os.path.dirname(__file__))
from gen_json import *

T['u8'] = ('jU8', 'jU8_ok', None)
T['Vec<u8>'] = ('(jVec jU8)', '(jVec_ok jU8_ok)', None)
T['[Color; 16]'] = ('(jArray 16 jColor)', '(jArray_ok jColor_ok)', 'fun l => l.length = 16 ∧ ∀ a ∈ l, AnyP a')

def copies(X, f, e, side):
    if re.fullmatch(r'\w+\s?\.%s(\s?\.clone\(\))?' % f, e): return True
    if X == 'GameData' and f in ('bg_offset_y_full_single_screen', 'bg_scale_y_full_single_screen'):
        return re.sub(r'\s', '', e) in (f'self.{f}.map(f32::from)', f'game_data.{f}.map(F32WithNanInf::from)')
    if f in ('elasticity', 'elasticity_falloff', 'friction', 'scatter_angle'): return e.endswith(f'.{f}.into()')
    if f == 'is_10_8_0_beta1_to_beta4':
        return re.sub(r'\s', '', e) in ('Some(game_data.is_10_8_0_beta1_to_beta4).filter(|x|x==&true)', 'self.is_10_8_0_beta1_to_beta4.unwrap_or(false)')
    return False

BASE_V = {'0': '0', 'vec![]': '[]', 'None': 'none', 'StringWithEncoding::empty()': 'StringWithEncoding.empty'}

M = ['import Verif.Model.GameData\nimport Verif.Model.JsonCodec\n/-\nThe JSON forms of game data and materials. Generated by tools/gen_tablejson.py from the source; each definition\n'
     'cites what it models.\n-/\nnamespace Vpin\n',
     '''/-- `[T; n]`: an array of exactly `n` values -/
def jArray {α : Type} (n : Nat) (c : Codec α) : Codec (List α) where
  toJ l := .arr (l.map c.toJ)
  ofJ | .arr l => if l.length = n then l.mapM c.ofJ else .error .io
      | _ => .error .io

/-- `StringWithEncoding::empty`, /repo/src/vpx/model.rs:80-85 -/
def StringWithEncoding.empty : StringWithEncoding := ⟨.utf8, []⟩
''']
S = ['import Verif.Model.GameData\nimport Verif.Spec.Json\nimport Verif.Spec.GameData\n/-\nWhich game data and materials their JSON form can hold: numbers in plain fields are finite and kept by the JSON\n'
     'text. Generated by tools/gen_tablejson.py.\n-/\nnamespace Vpin\n']
L = ['import Verif.Model.TableJson\nimport Verif.Spec.TableJson\nimport Verif.Lemmas.JsonCodec\nimport Verif.Lemmas.JsonEnums\n'
     '/-! Helper lemmas: reading game data and materials back from their JSON form. Generated by tools/gen_tablejson.py. -/\nnamespace Vpin\n',
     '''theorem jArray_ok {keeps : F32 → Prop} {α : Type} {c : Codec α} {P : α → Prop} {n : Nat} (hc : CodecOK keeps c P) :
    CodecOK keeps (jArray n c) (fun l => l.length = n ∧ ∀ a ∈ l, P a) where
  back l h := by
    show (if (l.map c.toJ).length = n then (l.map c.toJ).mapM c.ofJ else _) = _
    rw [List.length_map, if_pos h.1]
    exact mapM_back hc l h.2
  valid l h := (jVec_ok hc).valid l h.2
  notNull l h e := by cases e
''']
for stem, X in (('material', 'SavePhysicsMaterial'), ('material', 'SaveMaterial'), ('material', 'Material'), ('gamedata', 'GameData')):
    it = load(stem, X, path=ROOT + stem + '.rs')
    names = [f for f, _, _ in it.fields]
    assert sorted(f for f, _ in it.frm[0]) == sorted(names)
    for f, e in it.frm[0]: assert copies(X, f, e, 0), (X, f, e)
    base = []
    for f, e in it.to[0]:
        if f in names: assert copies(X, f, e, 1), (X, f, e)
        else: base.append((f, BASE_V[e]))
    fs, ps, oks, spec = [], [], [], []
    for f, t, attrs in it.fields:
        kind, nm, c, l, p = parse_field(it, f, t, attrs)
        get, put, pv, val = f'(·.{f})', f'fun v s => {{ s with {f} := v }}', f'fun b => {{ b with {f} := s.{f} }}', f's.{f}'
        if f == 'is_10_8_0_beta1_to_beta4':
            get = f'(fun s => if s.{f} then some true else none)'
            put = f'fun v s => {{ s with {f} := v.getD false }}'
            pv = f'fun b => {{ b with {f} := (if s.{f} then some true else none).getD false }}'
        fs.append(f'.{kind} {keys(nm)} {c} {get} {put}')
        ps.append(pv)
        if p is None and 'Vec' not in t: arg = 'trivial' if kind == 'req' else '(fun _ _ => trivial)'
        elif 'Vec<u8>' in t: arg = '(fun _ _ _ _ => trivial)'
        elif t == '[Color; 16]':
            spec.append(f'  {f} : s.{f}.length = 16'); arg = f'⟨h.{f}, fun _ _ => trivial⟩'
        else:
            arg = f'h.{f}'
            spec.append(f'  {f} : {p} {val}' if kind == 'req' else f'  {f} : OptP ({p}) {val}')
        oks.append(f'({kind}_ok {l} {arg})')
    d = {'GameData': 'GameData.default', 'Material': 'Material.default'}.get(X)
    N = len(fs)
    CH = 24   # long lists are split
    def split(xs): return [xs[i:i + CH] for i in range(0, len(xs), CH)]
    M.append(f'/-- `{X}Json`, {it.cite}, filled by {it.frm[1]} and read by\n{it.to[1]} -/')
    if N <= CH:
        M.append(f'def {X}.jsonFields : List (JField {X}) :=\n  [' + ',\n   '.join(fs) + ']\n')
        L.append(f'def {X}.jsonPuts (s : {X}) : List ({X} → {X}) :=\n  [' + ',\n   '.join(ps) + ']\n')
    else:
        parts = split(fs)
        for i, q in enumerate(parts):
            if i: M.append(f'/-- fields {i * CH + 1} to {i * CH + len(q)} -/')
            M.append(f'def {X}.jsonFields{i} : List (JField {X}) :=\n  [' + ',\n   '.join(q) + ']\n')
        M.append('/-- all fields -/')
        r = f'{X}.jsonFields{len(parts) - 1}'
        for i in reversed(range(len(parts) - 1)): r = f'({X}.jsonFields{i} ++ {r})'
        M.append(f'def {X}.jsonFields : List (JField {X}) := {r}\n')
        pp = split(ps)
        for i, q in enumerate(pp): L.append(f'def {X}.jsonPuts{i} (s : {X}) : List ({X} → {X}) :=\n  [' + ',\n   '.join(q) + ']\n')
        r = f's.jsonPuts{len(parts) - 1}'
        for i in reversed(range(len(parts) - 1)): r = f'(s.jsonPuts{i} ++ {r})'
        L.append(f'def {X}.jsonPuts (s : {X}) : List ({X} → {X}) := {r}\n')
    if base:
        M.append(f'/-- the fields that are not in the JSON form, {it.to[1]} -/')
        M.append(f'def {X}.jsonBase : {X} := {{ {d} with\n  ' + ', '.join(f'{k} := {v}' for k, v in base) + ' }\n')
        S.append(f'/-- game data without what its JSON form does not hold: script, materials, render probes and counts -/')
        SB = {'StringWithEncoding.empty': '⟨.utf8, []⟩'}
        S.append(f'def {X}.jsonPart (s : {X}) : {X} := {{ s with\n  ' + ', '.join(f'{k} := {SB.get(v, v)}' for k, v in base) + ' }\n')
    else:
        b = d or '⟨' + ', '.join({'String': '[]', 'bool': 'false', 'Color': 'Color.rgb 0 0 0'}.get(t, '0') for _, t, _ in it.fields) + '⟩'
        M.append(f'/-- all fields are in the JSON form -/\ndef {X}.jsonBase : {X} := {b}\n')
    M.append(f'def j{X} : Codec {X} := jStruct {X}.jsonFields {X}.jsonBase\n')
    S.append(f'structure {X}.JsonOk (keeps : F32 → Prop) (s : {X}) : Prop where\n' + '\n'.join(spec) + '\n')
    def chain(q):
        r = '.nil'
        for o in reversed(q): r = f'(.cons {o}\n    {r})'
        return r
    if N <= CH:
        L.append(f'theorem {X}.json_fields {{keeps : F32 → Prop}} {{s : {X}}} (h : s.JsonOk keeps) :\n    FieldsOK keeps s {X}.jsonFields s.jsonPuts :=\n  {chain(oks)}\n')
    else:
        po = split(oks)
        for i, q in enumerate(po):
            L.append(f'theorem {X}.json_fields{i} {{keeps : F32 → Prop}} {{s : {X}}} (h : s.JsonOk keeps) :\n    FieldsOK keeps s {X}.jsonFields{i} s.jsonPuts{i} :=\n  {chain(q)}\n')
        r = f'(json_fields{len(po) - 1} h)'
        for i in reversed(range(len(po) - 1)): r = f'(.append (json_fields{i} h) {r})'
        L.append(f'theorem {X}.json_fields {{keeps : F32 → Prop}} {{s : {X}}} (h : s.JsonOk keeps) :\n    FieldsOK keeps s {X}.jsonFields s.jsonPuts :=\n  {r}\n')
    L.append(f'theorem {X}.json_names : NamesOK {X}.jsonFields := by decide +kernel\n')
    part = 's.jsonPart' if base else 's'
    if X == 'GameData':
        L.append('theorem beta_back (b : Bool) : (if b then some true else none).getD false = b := by cases b <;> rfl\n')
        for i in range(len(pp)):
            pass
        L.append(f'theorem {X}.json_puts (s : {X}) : s.jsonPuts.foldl (fun b p => p b) {X}.jsonBase = {part} := by\n'
                 f'  have h : s.jsonPuts.foldl (fun b p => p b) {X}.jsonBase = {{ {part} with is_10_8_0_beta1_to_beta4 := (if s.is_10_8_0_beta1_to_beta4 then some true else none).getD false }} := rfl\n'
                 f'  rw [h, beta_back]; rfl\n')
    else:
        L.append(f'theorem {X}.json_puts (s : {X}) : s.jsonPuts.foldl (fun b p => p b) {X}.jsonBase = {part} := rfl\n')
    if base:
        L.append(f'theorem {X}.json_back {{keeps : F32 → Prop}} {{s : {X}}} (h : s.JsonOk keeps) :\n    j{X}.ofJ (j{X}.toJ s) = .ok s.jsonPart :=\n  (readJ_writeJ (json_fields h) json_names).trans (congrArg Except.ok s.json_puts)\n')
        L.append(f'theorem {X}.json_valid {{keeps : F32 → Prop}} {{s : {X}}} (h : s.JsonOk keeps) : (j{X}.toJ s).Valid keeps :=\n  writeJ_valid (json_fields h) json_names\n')
    else:
        L.append(f'theorem j{X}_ok {{keeps : F32 → Prop}} : CodecOK keeps j{X} ({X}.JsonOk keeps) :=\n  jStruct_ok {X}.json_names (fun _ h => {X}.json_fields h) {X}.json_puts\n')
for n, o in (('Model', M), ('Spec', S), ('Lemmas', L)):
    open(OUT + n + '/TableJson.lean', 'w').write('\n'.join(o) + '\nend Vpin\n')
