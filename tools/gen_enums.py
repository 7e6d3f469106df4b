#!/usr/bin/env python3
"""Generate lean/Verif/Model/Enums.lean from the enum definitions and conversions of /repo."""
import re, sys, os
sys.path.insert(0, os.path.dirname(__file__))
from rustsrc import *

ENUMS = [
    ('gameitem/decal.rs', 'DecalType'), ('gameitem/decal.rs', 'SizingType'),
    ('gameitem/flasher.rs', 'Filter'), ('gameitem/flasher.rs', 'RenderMode'),
    ('gameitem/flasher.rs', 'DmdStyle'), ('gameitem/flasher.rs', 'DisplayStyle'),
    ('gameitem/flasher.rs', 'SegStyle'), ('gameitem/flasher.rs', 'SegFamily'),
    ('gameitem/ramp.rs', 'RampType'), ('gameitem/partgroup.rs', 'VisibilityMask'),
    ('gameitem/partgroup.rs', 'SpaceReference'), ('gameitem/kicker.rs', 'KickerType'),
    ('gameitem/hittarget.rs', 'TargetType'), ('gameitem/gate.rs', 'GateType'),
    ('gameitem/plunger.rs', 'PlungerType'), ('gameitem/trigger.rs', 'TriggerShape'),
    ('gameitem/textbox.rs', 'TextAlignment'),
    ('gameitem/ramp_image_alignment.rs', 'RampImageAlignment'),
    ('gameitem/light.rs', 'ShadowMode'), ('gameitem/light.rs', 'Fader'),
    ('gamedata.rs', 'ViewLayoutMode'), ('gamedata.rs', 'ToneMapper'),
    ('material.rs', 'MaterialType'),
    ('renderprobe.rs', 'RenderProbeType'), ('renderprobe.rs', 'ReflectionMode'),
]

class Enum:
    pass

def parse(path, name):
    e = Enum()
    src = Src(path)
    e.src, e.name = src, name
    m, a, b = src.block(r'(?:pub(?:\(crate\))? )?enum %s \{' % name)
    e.cite = src.cite(m.start(), b)
    e.variants = []
    disc = {}
    nxt = 0
    for v in split_top(re.sub(r'#\[\w+\]', '', src.s[a:b])):
        mm = re.fullmatch(r'(\w+)(\(u32\))?(?: = (-?\w+))?', v)
        assert mm, (name, v)
        if mm.group(3):
            nxt = int(mm.group(3), 0)
        disc[mm.group(1)] = nxt
        nxt += 1
        e.variants.append((mm.group(1), bool(mm.group(2))))
    e.int = 'i32' if re.search(r'impl From<i32> for %s\b' % name, src.s) else 'u32'
    # number -> variant
    m, a, b = src.block(r'impl From<%s> for %s \{' % (e.int, name))
    e.of_cite = src.cite(m.start(), b)
    _, a, b = src.block(r'match (?:value|i)\b', a)
    e.of, e.of_default = [], None
    for arm in split_top(src.s[a:b]):
        mm = re.fullmatch(r'(-?\w+) => (?:%s|Self)::(\w+)(?:\((\w+)\))?' % name, squash(arm))
        if mm and re.match(r'-?\d', mm.group(1)):
            e.of.append((int(mm.group(1), 0), mm.group(2)))
        elif mm and mm.group(1) == '_':
            e.of_default = ('const', mm.group(2))
        elif mm and mm.group(3) == mm.group(1):
            e.of_default = ('wrap', mm.group(2))
        elif re.match(r'_ => panic!', squash(arm)):
            e.of_default = ('panic', None)
        else:
            raise Exception((name, arm))
    assert e.of_default
    # variant -> number
    m, a, b = src.block(r'impl From<&?%s> for %s \{' % (name, e.int))
    e.to_cite = src.cite(m.start(), b)
    body = src.s[a:b]
    e.to = {}
    if re.search(r'value as %s' % e.int, body):
        e.to = {v: disc[v] for v, _ in e.variants}
    else:
        _, a, b = src.block(r'match \w+', a)
        for arm in split_top(src.s[a:b]):
            mm = re.fullmatch(r'(?:%s|Self)::(\w+)(?:\((\w+)\))? => \*?(-?\w+)' % name, squash(arm))
            assert mm, (name, arm)
            e.to[mm.group(1)] = ('wrap' if mm.group(2) else int(mm.group(3), 0))
    assert set(e.to) == {v for v, _ in e.variants}, name
    # JSON
    e.ser = None
    m = re.search(r'impl Serialize for %s \{' % name, src.s)
    if m:
        m, a, b = src.block(r'impl Serialize for %s \{' % name)
        e.ser_cite = src.cite(m.start(), b)
        e.ser = {}
        _, a, b = src.block(r'match \*?self', a)
        for mm in re.finditer(r'(?:%s|Self)::(\w+)(?:\((\w+)\))? => (?:\{\s*)?(?:serializer\.serialize_str\()?(?:"(\w+)"|serializer\.serialize_u32\(\*\w+)' % name, src.s[a:b]):
            e.ser[mm.group(1)] = mm.group(3) if mm.group(3) is not None else None
        assert set(e.ser) == {v for v, _ in e.variants}, name
        m, a, b = src.block(r"impl<'de> Deserialize<'de> for %s \{" % name)
        e.de_cite = src.cite(m.start(), b)
        body = src.s[a:b]
        e.de = re.findall(r'"(\w+)" => (?:\{\s*)?Ok\((?:%s|Self)::(\w+)\)' % name, body)
        e.den = [(int(n, 0), v) for n, v in re.findall(r'\b(-?\d+) => (?:\{\s*)?Ok\((?:%s|Self)::(\w+)\)' % name, body)]
        e.den_from = bool(re.search(r'Ok\(%s::from\(value\)\)|Ok\(val\.into\(\)\)' % name, body))
        e.lower = 'value.to_lowercase().as_str()' in body
    return e

def lit(n):
    return f'({n})' if n < 0 else (hex(n) if n > 9 else str(n))

def gen(e):
    L = 'UInt32' if e.int == 'u32' else 'Int32'
    N = e.name
    o = []
    o.append(f'/-- `enum {N}`, {e.cite} -/')
    o.append(f'inductive {N} where')
    for v, w in e.variants:
        o.append(f'  | {v}' + (' (value : UInt32)' if w else ''))
    o.append('  deriving DecidableEq, Repr\n')
    fn = 'toU32' if e.int == 'u32' else 'toI32'
    o.append(f'/-- `From<&{N}> for {e.int}`, {e.to_cite} -/')
    o.append(f'def {N}.{fn} : {N} → {L}')
    for v, w in e.variants:
        o.append(f'  | .{v}' + (' value => value' if w else f' => {lit(e.to[v])}'))
    o.append('')
    fn = 'ofU32' if e.int == 'u32' else 'ofI32'
    o.append(f'/-- `From<{e.int}> for {N}`, {e.of_cite} -/')
    o.append(f'def {N}.{fn} (n : {L}) : Res {N} :=')
    for i, (n, v) in enumerate(e.of):
        o.append(f'  {"" if i == 0 else "else "}if n = {lit(n)} then .ok .{v}')
    k, v = e.of_default
    o.append('  else ' + {'panic': '.error .panic', 'const': f'.ok .{v}', 'wrap': f'.ok (.{v} n)'}[k])
    o.append('')
    if e.ser is not None:
        o.append(f'/-- `Serialize for {N}`, {e.ser_cite} -/')
        o.append(f'def {N}.toJ : {N} → J')
        for v, w in e.variants:
            s = e.ser[v]
            o.append(f'  | .{v}' + (' value => .num value.toNat' if s is None else f' => .str "{s}".toList'))
        o.append('')
        o.append(f'/-- `Deserialize for {N}`, {e.de_cite} -/')
        o.append(f'def {N}.ofJ : J → Res {N}')
        if e.lower:
            o.append('  -- `to_lowercase` is modelled for ASCII letters')
        o.append('  | .str s' + ("0 =>\n    let s := s0.map Char.toLower" if e.lower else ' =>'))
        for i, (s, v) in enumerate(e.de):
            o.append(f'    {"" if i == 0 else "else "}if s = "{s}".toList then .ok .{v}')
        o.append('    else .error .io')
        if e.den:
            o.append('  | .num n =>')
            for i, (s, v) in enumerate(e.den):
                o.append(f'    {"" if i == 0 else "else "}if n = {lit(s)} then .ok .{v}')
            o.append('    else .error .io')
        elif e.den_from:
            o.append('  | .num n =>')
            o.append(f'    if 0 ≤ n ∧ n < 2 ^ 32 then {N}.ofU32 (UInt32.ofNat n.toNat) else .error .io')
        o.append('  | _ => .error .io')
        o.append('')
    return '\n'.join(o)

def all_enums():
    return [parse(p, n) for p, n in ENUMS]


HEAD = """import Verif.Model.Json
/-
Enumerations stored as numbers in the file and as names in JSON.
Generated by tools/gen_enums.py from the sources; each definition cites what it models.
-/
namespace Vpin
"""

if __name__ == '__main__':
    out = os.path.join(os.path.dirname(__file__), '../lean/Verif/Model/Enums.lean')
    with open(out, 'w') as f:
        f.write(HEAD + '\n' + '\n'.join(gen(e) for e in all_enums()) + '\nend Vpin\n')
