"""Generate lean/Verif/Model/VteTables.lean from the C text in /repo."""
import re
V = open('/repo/src/tsm/tsm-vte.c').read().split('\n')
C = open('/repo/src/tsm/tsm-vte-charsets.c').read().split('\n')
K = {}
for l in open('/repo/external/xkbcommon/xkbcommon-keysyms.h'):
    m = re.match(r'#define XKB_KEY_(\w+)\s+(0x[0-9a-fA-F]+)', l)
    if m: K[m.group(1)] = int(m.group(2), 16)

out = []
def wrap(items, ind='  '):
    s = []; cur = ind
    for i, x in enumerate(items):
        x = x + (', ' if i + 1 < len(items) else '')
        if len(cur) + len(x.rstrip()) > 98:
            s.append(cur.rstrip()); cur = ind
        cur += x
    s.append(cur.rstrip())
    return '\n'.join(s)

# character sets
def charset(name):
    for i, l in enumerate(C):
        if l.startswith('tsm_vte_charset %s = {' % name):
            start = i + 1; break
    t = [None] * 96
    for j in range(start, len(C)):
        if C[j].startswith('};'):
            end = j + 1; break
        l = re.sub(r'/\*.*?\*/', '', C[j])
        m = re.match(r'\s*\[(\d+)\] = (\w+),?\s*$', l)
        if m:
            t[int(m.group(1))] = int(m.group(2), 0)
        elif l.strip():
            raise Exception(l)
    assert None not in t, [i for i, x in enumerate(t) if x is None]
    return t, start, end
for name, ln in (('tsm_vte_unicode_lower', 'unicodeLower'), ('tsm_vte_unicode_upper', 'unicodeUpper'),
                 ('tsm_vte_dec_supplemental_graphics', 'decSupplemental'),
                 ('tsm_vte_dec_special_graphics', 'decSpecial')):
    t, a, b = charset(name)
    out.append('/-- `%s` (src/tsm/tsm-vte-charsets.c:%d-%d). -/\ndef %s : List Nat := [\n%s]\n' %
               (name, a, b, ln, wrap([str(x) for x in t])))

# palettes
names = ['BLACK', 'RED', 'GREEN', 'YELLOW', 'BLUE', 'MAGENTA', 'CYAN', 'LIGHT_GREY', 'DARK_GREY', 'LIGHT_RED',
         'LIGHT_GREEN', 'LIGHT_YELLOW', 'LIGHT_BLUE', 'LIGHT_MAGENTA', 'LIGHT_CYAN', 'WHITE', 'FOREGROUND', 'BACKGROUND']
for i, l in enumerate(V):
    m = re.match(r'static uint8_t color_palette_(\w+)\[TSM_COLOR_NUM\]\[3\] = \{', l)
    if not m: continue
    t = [None] * 18
    j = i + 1
    while not V[j].startswith('};'):
        s = re.sub(r'/\*.*?\*/', '', V[j])
        mm = re.match(r'\s*\[TSM_COLOR_(\w+)\]\s*= \{\s*(\w+),\s*(\w+),\s*(\w+) \},\s*$', s)
        if mm: t[names.index(mm.group(1))] = tuple(int(mm.group(k), 0) for k in (2, 3, 4))
        elif s.strip(): raise Exception(s)
        j += 1
    assert None not in t
    ln = 'palette' + ''.join(p.capitalize() for p in m.group(1).split('_'))
    out.append('/-- `color_palette_%s` (src/tsm/tsm-vte.c:%d-%d). -/\ndef %s : List (Nat × Nat × Nat) := [\n%s]\n' %
               (m.group(1), i + 1, j + 1, ln, wrap(['(%d, %d, %d)' % x for x in t])))

# keyboard
def find(pat, frm=0):
    for i in range(frm, len(V)):
        if pat in V[i]: return i
kb = find('bool tsm_vte_handle_keyboard')
cs = find('switch (sym) {', kb); ks = find('switch (keysym) {', cs); ke = find('if (unicode != TSM_VTE_INVALID)', ks)
def cstr(s):
    b = []; i = 0
    while i < len(s):
        if s[i] == '\\':
            if s[i+1] == 'e': b.append(27); i += 2
            elif s[i+1] == 'x': b.append(int(s[i+2:i+4], 16)); i += 4
            else: raise Exception(s)
        else: b.append(ord(s[i])); i += 1
    return b
def clean(lines):
    t = '\n'.join(lines)
    t = re.sub(r'/\*.*?\*/', '', t, flags=re.S)
    t = re.sub(r'//.*', '', t)
    return t
ctrl = []
t = clean(V[cs+1:ks-2])
for m in re.finditer(r'((?:case XKB_KEY_\w+:\s*)+)vte_write\(vte, "((?:[^"\\]|\\.)*)", (\d+)\);\s*return true;', t):
    b = cstr(m.group(2)); assert len(b) == int(m.group(3)) == 1
    for k in re.findall(r'XKB_KEY_(\w+)', m.group(1)): ctrl.append((K[k], b[0]))
assert len(ctrl) == len(re.findall('case', t)), (len(ctrl), len(re.findall('case', t)))
out.append('/-- The keys handled with CTRL and what is sent (src/tsm/tsm-vte.c:%d-%d,\nexternal/xkbcommon/xkbcommon-keysyms.h). -/\ndef ctrlKeys : List (Nat × UInt8) := [\n%s]\n' %
           (cs + 1, ks - 1, wrap(['(0x%x, %d)' % x for x in ctrl])))
t = clean(V[ks+1:ke-2])
W = r'vte_write\(vte, "((?:[^"\\]|\\.)*)", (\d+)\);'
def bs(s, n):
    b = cstr(s); assert len(b) == int(n), (s, n)
    return '[' + ', '.join(str(x) for x in b) + ']'
keys = []
pos = 0
while True:
    m = re.compile(r'\s*((?:case XKB_KEY_\w+:\s*)+)').match(t, pos)
    if not m:
        assert t[pos:].strip() in ('', '}'), t[pos:pos+200]
        break
    ids = [K[k] for k in re.findall(r'XKB_KEY_(\w+)', m.group(1))]
    p = m.end()
    forms = [
      (W + r'\s*return true;', lambda g: '.plain ' + bs(g[0], g[1])),
      (r'if \(vte->backspace_sends_delete\)\s*' + W + r'\s*else\s*' + W + r'\s*return true;', lambda g: '.backspace %s %s' % (bs(g[0], g[1]), bs(g[2], g[3]))),
      (r'if \(vte->flags & TSM_VTE_FLAG_KEYPAD_APPLICATION_MODE\)\s*' + W + r'\s*else\s*' + W + r'\s*return true;', lambda g: '.keypad %s %s' % (bs(g[0], g[1]), bs(g[2], g[3]))),
      (r'if \(vte->flags & TSM_VTE_FLAG_CURSOR_KEY_MODE\)\s*' + W + r'\s*else\s*' + W + r'\s*return true;', lambda g: '.cursor %s %s' % (bs(g[0], g[1]), bs(g[2], g[3]))),
      (r'if \(vte->flags & TSM_VTE_FLAG_LINE_FEED_NEW_LINE_MODE\)\s*' + W + r'\s*else\s*' + W + r'\s*return true;', lambda g: '.enter %s %s' % (bs(g[0], g[1]), bs(g[2], g[3]))),
      (r'if \(mods & TSM_SHIFT_MASK\)\s*' + W + r'\s*else\s*' + W + r'\s*return true;', lambda g: '.shifted %s %s' % (bs(g[0], g[1]), bs(g[2], g[3]))),
      (r'if \(mods & TSM_CONTROL_MASK\) \{\s*' + W + r'\s*\} else if \(vte->flags & TSM_VTE_FLAG_CURSOR_KEY_MODE\) \{\s*' + W + r'\s*\} else \{\s*' + W + r'\s*\}\s*return true;', lambda g: '.arrow %s %s %s' % (bs(g[0], g[1]), bs(g[2], g[3]), bs(g[4], g[5]))),
      (r'if \(vte->flags & TSM_VTE_FLAG_KEYPAD_APPLICATION_MODE\) \{\s*' + W + r'\s*return true;\s*\}\s*case XKB_KEY_Return:\s*if \(vte->flags & TSM_VTE_FLAG_LINE_FEED_NEW_LINE_MODE\)\s*' + W + r'\s*else\s*' + W + r'\s*return true;', None),
    ]
    for f, g in forms:
        mm = re.compile(f).match(t, p)
        if mm:
            gr = mm.groups()
            if g is None:
                for k in ids: keys.append((k, '.kpEnter %s %s %s' % (bs(gr[0], gr[1]), bs(gr[2], gr[3]), bs(gr[4], gr[5]))))
                keys.append((K['Return'], '.enter %s %s' % (bs(gr[2], gr[3]), bs(gr[4], gr[5]))))
            else:
                for k in ids: keys.append((k, g(gr)))
            pos = mm.end(); break
    else:
        raise Exception(t[p:p+300])
assert len(keys) == len(re.findall('case ', t))
assert len(set(k for k, _ in keys)) == len(keys) and len(set(k for k, _ in ctrl)) == len(ctrl)
out.append('''/-- What a key sends, see `keyTable`; the strings are those of the C code in their order
(src/tsm/tsm-vte.c:%d-%d). -/
inductive KeyAct where
  /-- one fixed string -/
  | plain (b : List UInt8)
  /-- depends on `backspace_sends_delete` -/
  | backspace (del bs : List UInt8)
  /-- depends on the keypad application mode -/
  | keypad (app num : List UInt8)
  /-- depends on the cursor key mode -/
  | cursor (app num : List UInt8)
  /-- depends on the line-feed/new-line mode -/
  | enter (nl cr : List UInt8)
  /-- the keypad's enter key: keypad application mode, then as `enter` -/
  | kpEnter (app nl cr : List UInt8)
  /-- depends on SHIFT -/
  | shifted (sh norm : List UInt8)
  /-- arrow keys: CTRL, then as `cursor` -/
  | arrow (ctrl app num : List UInt8)
  deriving DecidableEq, Repr
''' % (ks + 1, ke - 1))
out.append('/-- The `switch (keysym)` (src/tsm/tsm-vte.c:%d-%d, external/xkbcommon/xkbcommon-keysyms.h);\nstrings are given as bytes. -/\ndef keyTable : List (Nat × KeyAct) := [\n%s]\n' %
           (ks + 1, ke - 1, ',\n'.join('  (0x%x, %s)' % x for x in keys)))
open('/verif/lean/Verif/Model/VteTables.lean', 'w').write('''/-!
# Character sets, palettes and key tables

Generated by tools/gen_vte_tables.py from src/tsm/tsm-vte-charsets.c and src/tsm/tsm-vte.c.
-/

namespace Verif.Vte

''' + '\n'.join(out) + '\nend Verif.Vte\n')
