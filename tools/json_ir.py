#!/usr/bin/env python3
"""Parse the `XJson` structures of the game items and their conversions from /repo."""
import os, re
ROOT = '/repo/src/vpx/'
BASE = ROOT + 'gameitem/'

def block(s, i):
    """text between the braces that open after position i, and the position behind them"""
    i = s.index('{', i); d = 0; j = i
    while True:
        if s[j] == '{': d += 1
        elif s[j] == '}':
            d -= 1
            if d == 0: return s[i + 1:j], j + 1
        j += 1

def fieldsof(b):
    out, attrs = [], []
    for line in b.split('\n'):
        line = re.sub(r'//.*', '', line).strip()
        if not line: continue
        if line.startswith('#['):
            attrs.append(line); continue
        m = re.match(r'(?:pub(?:\(\w+\))? )?(\w+): (.*?),?$', line)
        out.append((m.group(1), m.group(2), attrs)); attrs = []
    return out

def literal(b):
    """split a struct literal into (field, expression)"""
    b = re.sub(r'//[^\n]*', '', b)
    out, d, cur = [], 0, ''
    for ch in b:
        if ch in '([{': d += 1
        if ch in ')]}': d -= 1
        if ch == ',' and d == 0:
            out.append(cur.strip()); cur = ''
        else: cur += ch
    if cur.strip(): out.append(cur.strip())
    res = []
    for o in out:
        m = re.match(r'(\w+)\s*:\s*(.*)$', o, re.S)
        res.append((m.group(1), re.sub(r'\s+', ' ', m.group(2))) if m else (o, o))
    return res

class JsonItem: pass

def lines(s, a, b): return f'{s[:a].count(chr(10)) + 1}-{s[:b].count(chr(10)) + 1}'

def load(stem, name=None, path=None):
    path = path or BASE + stem + '.rs'
    s = open(path).read()
    i = s.find('#[cfg(test)]\nmod tests')
    if i > 0: s = s[:i]
    m = re.search(r'struct (\w+)Json\b', s) if name is None else re.search(r'struct (%s)Json\b' % name, s)
    it = JsonItem()
    it.name = X = m.group(1); it.stem = stem; it.path = path
    b, e = block(s, m.end())
    it.cite = f'{path}:{lines(s, m.start(), e - 1)}'
    it.fields = fieldsof(b)
    it.frm = it.to = None
    it.nojson = {}
    for mm in re.finditer(r'\bfn (\w+)[^{;]*?\{', s[e:]):
        fn = mm.group(1)
        body, end = block(s, e + mm.end() - 1)
        start = e + mm.start()
        lit = None
        if it.frm is None and (fn.startswith('from') or fn == 'serialize'):
            q = re.search(r'\b(Self|%sJson) \{' % X, body)
            if q: it.frm = (literal(block(body, q.start())[0]), f'{path}:{lines(s, start, end - 1)}')
        if it.to is None and (fn.startswith(('to_', 'into_')) or fn == 'deserialize'):
            q = re.search(r'\b%s \{' % X, body)
            if q: it.to = (literal(block(body, q.start())[0]), f'{path}:{lines(s, start, end - 1)}')
    return it
