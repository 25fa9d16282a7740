"""Check citations `file.rs A-B `symbol`` in the Lean sources against /repo."""
import re, glob, os
R = '/repo/src/'
files = {}
for p in glob.glob(R + '**/*.rs', recursive=True):
    files[p[len(R):]] = open(p).read().split('\n')
def span(lines, sym):
    sym = sym.split('::')[-1]
    out = []
    for i, l in enumerate(lines):
        if re.search(r'\b(fn|enum|struct|impl|mod|const|static|trait|type)\s+' + re.escape(sym) + r'\b', l):
            d = 0; j = i; seen = False
            while j < len(lines):
                for c in re.sub(r'"(\\.|[^"\\])*"|\'.\'', '', lines[j]):
                    if c == '{': d += 1; seen = True
                    if c == '}': d -= 1
                if seen and d == 0: break
                if not seen and lines[j].rstrip().endswith(';'): break
                j += 1
            out.append((i + 1, j + 1))
    return out
bad = 0
for p in sorted(glob.glob('/verif/lean/Verif/**/*.lean', recursive=True)):
    t = open(p).read()
    for m in re.finditer(r'((?:\w+/)*\w+\.rs) (\d+)(?:[-–](\d+))?,?\s+`([\w:]+)`', t):
        f, a, b, s = m.group(1), int(m.group(2)), int(m.group(3) or m.group(2)), m.group(4)
        f = f.replace('src/', '')
        if f not in files:
            print(p, 'no file', f); bad += 1; continue
        if b > len(files[f]):
            print(p, 'too long', m.group(0)); bad += 1
        sp = span(files[f], s)
        if not sp: continue
        if not any(x - 3 <= a and b <= y + 1 for x, y in sp):
            line = t[:m.start()].count('\n') + 1
            print(f'{os.path.relpath(p, "/verif/lean/Verif")}:{line}: {f} {a}-{b} `{s}` is at {sp}'); bad += 1
print('mismatches:', bad)
