"""Small helpers to read the Rust sources of /repo as text."""
import re, struct

REPO = '/repo/src/vpx/'

def blank_comments(s):
    """Replace // comments by spaces, keeping offsets and newlines."""
    out = []
    i = 0
    n = len(s)
    while i < n:
        c = s[i]
        if c == '"':
            j = i + 1
            while j < n and s[j] != '"':
                j += 2 if s[j] == '\\' else 1
            out.append(s[i:j + 1])
            i = j + 1
        elif c == '/' and s[i:i + 2] == '//':
            j = s.find('\n', i)
            if j < 0:
                j = n
            out.append(' ' * (j - i))
            i = j
        elif c == "'" and i + 2 < n and (s[i + 2] == "'" ):
            out.append(s[i:i + 3])
            i += 3
        else:
            out.append(c)
            i += 1
    return ''.join(out)

class Src:
    def __init__(self, path):
        self.path = path
        self.raw = open(REPO + path).read()
        s = blank_comments(self.raw)
        k = s.find('#[cfg(test)]\nmod tests')
        self.s = s[:k] if k > 0 else s

    def line(self, off):
        return self.s.count('\n', 0, off) + 1

    def close(self, i):
        """offset of the brace closing the one at i"""
        pair = {'{': '}', '(': ')', '[': ']'}
        o = self.s[i]
        c = pair[o]
        d = 0
        j = i
        while True:
            ch = self.s[j]
            if ch == '"':
                j += 1
                while self.s[j] != '"':
                    j += 2 if self.s[j] == '\\' else 1
            elif ch == o:
                d += 1
            elif ch == c:
                d -= 1
                if d == 0:
                    return j
            j += 1

    def block(self, pat, start=0):
        """(match, start offset of body, end offset of body) of the first block after pat"""
        m = re.compile(pat).search(self.s, start)
        if not m:
            raise KeyError(f'{self.path}: {pat}')
        i = self.s.index('{', m.end() - 1) if self.s[m.end() - 1] != '{' else m.end() - 1
        return m, i + 1, self.close(i)

    def cite(self, a, b):
        la, lb = self.line(a), self.line(b)
        return f'/repo/src/vpx/{self.path}:{la}-{lb}' if la != lb else f'/repo/src/vpx/{self.path}:{la}'

def split_top(s, sep=','):
    """split at top-level separators"""
    out = []
    d = 0
    cur = ''
    i = 0
    while i < len(s):
        ch = s[i]
        if ch == '"':
            j = i + 1
            while s[j] != '"':
                j += 2 if s[j] == '\\' else 1
            cur += s[i:j + 1]
            i = j + 1
            continue
        if ch in '({[<' and not (ch == '<' and s[i - 1] == ' '):
            d += 1
        elif ch in ')}]>' and not (ch == '>' and s[i - 1] in '-= '):
            d -= 1
        if ch == sep and d == 0:
            out.append(cur)
            cur = ''
        else:
            cur += ch
        i += 1
    if cur.strip():
        out.append(cur)
    return [x.strip() for x in out]

def squash(s):
    return re.sub(r'\s+', ' ', s).strip()

def f32bits(x):
    return struct.unpack('<I', struct.pack('<f', x))[0]
