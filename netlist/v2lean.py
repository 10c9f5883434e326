#!/usr/bin/env python3
"""Translates a Yosys netlist of /repo/verilog_src to Lean, signal by signal.

usage: v2lean.py <file.v> <namespace> <out.lean> [<base.v> <base namespace>]...

With a base, modules that are the same in both files up to the order of ports, declarations, registers and instances
are not translated again: the translation of the first base that has them is used; the last base imports the others.

One-bit nets become Bool, wider nets Nat (all nets of these netlists are unsigned). Every wire becomes a definition of
the module state `s` and of the input ports it depends on; every register a field of the structure `S`; every instance a
field `u_<name>`; `step` is one rising clock edge (all clocks of the netlist are one clock, clock nets are left out).
`Init` says that every register that has a Verilog initial value has it; registers without one are arbitrary.
Reading a memory outside its range gives 0 (Verilog: x).
"""
import re, sys

LINES = []  # line of each token
def blank(m): return ' ' + '\n' * m.group(0).count('\n')
def tokenize(t):
    t = re.sub(r'/\*.*?\*/', blank, t, flags=re.S)
    t = re.sub(r'@\*', '@STAR', t)
    t = t.replace('""', "8'h00")
    t = re.sub(r'\(\*.*?\*\)', blank, t, flags=re.S)
    rx = re.compile(r"\\(\S+)|([A-Za-z_][A-Za-z0-9_$]*)|(\d+'[hbd][0-9a-fzx]+)|(\d+)|(<<<|>>>|<=|>=|==|!=|[-+~&|?:;,.()\[\]{}=@<>^*])|(\s+)")
    out, i = [], 0
    ln = 1
    while i < len(t):
        m = rx.match(t, i)
        if not m: raise Exception("lex: " + t[i:i+40])
        i = m.end()
        tl = ln
        ln += m.group(0).count('\n')
        LINES.append(tl) if not m.group(6) else None
        if m.group(1): out.append(('id', m.group(1)))
        elif m.group(2): out.append(('kw' if m.group(2) in KW else 'id', m.group(2)))
        elif m.group(3): out.append(('const', m.group(3)))
        elif m.group(4): out.append(('num', int(m.group(4))))
        elif m.group(5): out.append(('sym', m.group(5)))
    return out
KW = {'module','endmodule','wire','reg','input','output','assign','always','posedge','begin','end','casez','endcase','initial','if','STAR'}
LEANKW = {'end','in','open','at','from','by','do','then','else','if','let','have','show','fun','match','with','where','def','namespace','section','variable','example','theorem','instance','structure','class','import','set_option','macro','syntax','notation','prefix','infix','universe','private','protected','attribute','abbrev','axiom','inductive','local','scoped','mutual','step','S','Init','s'}

def clean(n):
    n = n.replace('$next\\', 'next_')
    if re.fullmatch(r'\$\d+', n): n = 'w' + n[1:]
    n = n.replace('$', '_').replace('\\', '_').replace('.', '_')
    if n.startswith('_'): n = 'r' + n
    if n in LEANKW: n += "'"
    return n

def isclk(n): return n in ('clk', '$next\\clk') or n.endswith('_clk')

class Mod: pass

class P:
    def __init__(s, toks): s.t, s.i = toks, 0
    def peek(s, k=0): return s.t[s.i+k] if s.i+k < len(s.t) else ('eof','')
    def nxt(s): s.i += 1; return s.t[s.i-1]
    def exp(s, v):
        x = s.nxt()
        if x[1] != v: raise Exception("expected %r got %r (at %r)" % (v, x, s.t[s.i-8:s.i+4]))
        return x
    def acc(s, v):
        if s.peek()[1] == v and s.peek()[0] in ('sym','kw'): s.i += 1; return True
        return False
    def line(s): return LINES[s.i] if s.i < len(LINES) else 0
    def ident(s):
        x = s.nxt()
        if x[0] != 'id': raise Exception("ident expected: %r" % (x,))
        return x[1]
    def rng(s):
        if s.acc('['):
            h = s.nxt()[1]; s.exp(':'); l = s.nxt()[1]; s.exp(']')
            return (h, l)
        return None
    # expressions
    def primary(s):
        k, v = s.peek()
        if k == 'const': s.nxt(); return ('const', v)
        if k == 'num': s.nxt(); return ('num', v)
        if v == '(':
            s.nxt(); e = s.expr(); s.exp(')'); return e
        if v == '{':
            s.nxt(); es = [s.expr()]
            while s.acc(','): es.append(s.expr())
            s.exp('}'); return ('cat', es)
        if v in ('~', '+', '-') and k == 'sym':
            s.nxt(); return ('un', v, s.primary())
        n = s.ident()
        if s.acc('['):
            a = s.expr()
            if s.acc(':'):
                b = s.expr(); s.exp(']'); return ('slice', n, a[1], b[1])
            s.exp(']'); return ('index', n, a)
        return ('id', n)
    def expr(s):
        a = s.primary()
        k, v = s.peek()
        if k == 'sym' and v in ('==','!=','<=','>=','<','>','&','|','^','+','-','<<<','>>>','*'):
            s.nxt(); b = s.primary(); a = ('bin', v, a, b)
        if s.acc('?'):
            x = s.expr(); s.exp(':'); y = s.expr(); a = ('ite', a, x, y)
        return a
    # statements (always @*)
    def stmt(s):
        if s.acc('begin'):
            r = []
            while not s.acc('end'): r += s.stmt()
            return r
        if s.acc(';'): return []
        if s.acc('casez'):
            s.exp('('); sel = s.expr(); s.exp(')')
            br = []
            while not s.acc('endcase'):
                pats = [s.nxt()[1]]
                while s.acc(','): pats.append(s.nxt()[1])
                s.exp(':')
                br.append((pats, s.stmt()))
            return [('case', sel, br)]
        n = s.ident(); r = None
        if s.acc('['):
            h = s.nxt()[1]
            if s.acc(':'): l = s.nxt()[1]
            else: l = h
            s.exp(']'); r = (h, l)
        s.exp('='); e = s.expr(); s.exp(';')
        return [('asg', n, r, e)]
    def module(s):
        m = Mod(); m.line = s.line(); s.exp('module'); m.name = s.ident(); m.lines = {}; m.dline = {}
        s.exp('('); m.ports = [s.ident()]
        while s.acc(','): m.ports.append(s.ident())
        s.exp(')'); s.exp(';')
        m.width, m.kind, m.init, m.mem, m.meminit = {}, {}, {}, {}, {}
        m.assign, m.next, m.comb, m.inst, m.seq = {}, {}, {}, [], []
        m.order = []
        while not s.acc('endmodule'):
            ln = s.line()
            k = s.nxt()[1]
            if k in ('input','output','wire','reg'):
                r = s.rng(); n = s.ident()
                w = 1 if r is None else r[0]-r[1]+1
                assert r is None or r[1] == 0
                r2 = s.rng()
                if r2:
                    m.mem[n] = (w, r2[0]+1); s.exp(';'); continue
                m.width[n] = w
                m.kind.setdefault(n, set()).add(k)
                if s.acc('='): m.init[n] = s.nxt()[1]
                s.exp(';')
            elif k == 'assign':
                n = s.ident(); s.exp('='); e = s.expr(); s.exp(';'); m.assign[n] = e; m.lines[n] = (ln, LINES[s.i-1])
            elif k == 'always':
                s.exp('@')
                if s.acc('STAR'):
                    b = s.stmt()
                    tgt = []
                    def coll(ss):
                        for x in ss:
                            if x[0] == 'asg': tgt.append(x[1])
                            else:
                                for _, y in x[2]: coll(y)
                    coll(b)
                    b = [x for x in b if not (x[0]=='asg' and x[1]=='$verilog_initial_trigger')]
                    tgt = set(tgt) - {'$verilog_initial_trigger'}
                    if not tgt: continue
                    assert len(tgt) == 1, tgt
                    n = tgt.pop(); m.comb[n] = b; m.lines[n] = (ln, LINES[s.i-1])
                else:
                    s.exp('('); s.exp('posedge'); s.ident(); s.exp(')')
                    def seq():
                        if s.acc('begin'):
                            while not s.acc('end'): seq()
                            return
                        c = None
                        if s.acc('if'):
                            s.exp('('); c = s.expr(); s.exp(')')
                        n = s.ident(); ix = None
                        if s.acc('['): ix = s.expr(); s.exp(']')
                        s.exp('<='); e = s.expr(); s.exp(';')
                        m.seq.append((c, n, ix, e))
                    seq()
            elif k == 'initial':
                s.exp('begin')
                while not s.acc('end'):
                    n = s.ident(); s.exp('['); ix = s.nxt()[1]; s.exp(']'); s.exp('='); v = s.nxt()[1]; s.exp(';')
                    m.meminit.setdefault(n, {})[ix] = v
            else:
                # instance: k is the module type
                name = s.ident(); s.exp('(')
                con = {}
                while True:
                    s.exp('.'); p = s.ident(); s.exp('('); e = s.expr(); s.exp(')'); con[p] = e
                    if not s.acc(','): break
                s.exp(')'); s.exp(';')
                m.inst.append((k, name, con)); m.lines['inst ' + name] = (ln, LINES[s.i-1])
        m.end = LINES[s.i-1]
        return m

def const(v):
    m = re.fullmatch(r"(\d+)'([hbd])([0-9a-fzx]+)", v)
    w, b, d = int(m.group(1)), m.group(2), m.group(3)
    return w, int(d, {'h':16,'b':2,'d':10}[b])

def patbits(v):
    """pattern as list of bits, MSB first, each 0/1/z"""
    m = re.fullmatch(r"(\d+)'([hbd])([0-9a-fzx]+)", v)
    w, b, d = int(m.group(1)), m.group(2), m.group(3)
    if set(d) == {'z'}: return ['z']*w
    if b == 'h': bits = ''.join('zzzz' if c == 'z' else format(int(c,16),'04b') for c in d)
    elif b == 'd': bits = format(int(d), 'b')
    else: bits = d
    bits = bits.rjust(w, '0')
    return list(bits[-w:])

def num(n): return str(n) if n < 4096 else hex(n)
def par(x): return x if re.fullmatch(r"[\w.']+", x) or (x[0]=='(' and match(x)) else '(' + x + ')'
def match(x):
    d = 0
    for i, c in enumerate(x):
        if c == '(': d += 1
        if c == ')':
            d -= 1
            if d == 0: return i == len(x)-1
    return False

class Gen:
    def __init__(s, mods, ns, file, shared={}):
        s.file = file
        s.mods, s.ns = {m.name: shared.get(m.name, m) for m in mods}, ns
        s.out = []
        s.done = set(shared)
        for m in mods: s.gen(m)
    def gen(s, m):
        if m.name in s.done: return
        s.done.add(m.name)
        for k, _, _ in m.inst: s.gen(s.mods[k])
        M(s, m)

class M:
    def __init__(s, g, m):
        s.g, s.m = g, m
        m.gen = s
        m.lname = clean(m.name)
        s.nm = {}
        seen = {}
        for n in list(m.width) + list(m.mem):
            c = clean(n)
            assert c not in seen, (m.name, c)
            seen[c] = 1; s.nm[n] = c
        s.inputs = [p for p in m.ports if 'input' in m.kind[p] and not isclk(p)]
        s.regs = []
        s.nexts = {}
        s.writes = []
        for c, n, ix, e in m.seq:
            if ix is None:
                if n in m.width and n not in s.regs: s.regs.append(n)
                s.nexts[n] = (c, e)
            else: s.writes.append((c, n, ix, e))
        # wire definitions
        s.defs = {}
        for n, e in m.assign.items():
            if isclk(n): continue
            s.defs[n] = ('e', e)
        for n, b in m.comb.items():
            if isclk(n): continue
            s.defs[n] = ('b', b)
        s.subout = {}
        for k, name, con in m.inst:
            sub = g.mods[k]
            for p, e in con.items():
                if 'output' in sub.kind[p] and not isclk(p):
                    assert e[0] == 'id', e
                    s.subout[e[1]] = (k, name, p, con)
        s.deps = {}
        s.emit()
    # ----- dependencies on input ports
    def dep(s, n):
        if n in s.deps: return s.deps[n]
        s.deps[n] = None
        m = s.m
        if n in s.inputs: r = {n}
        elif n in s.regs or n in m.mem: r = set()
        elif n in s.subout:
            k, name, p, con = s.subout[n]
            sub = s.g.mods[k].gen
            r = set()
            for q in sub.dep(p): r |= s.depe(con[q])
        elif n in s.defs:
            kind, b = s.defs[n]
            r = s.depe(b) if kind == 'e' else s.depb(b)
        else: raise Exception("undriven %s.%s" % (m.name, n))
        s.deps[n] = r
        return r
    def depn(s, n):
        r = s.dep(n)
        if r is None: raise Exception("comb loop at %s.%s" % (s.m.name, n))
        return r
    def depe(s, e):
        k = e[0]
        if k in ('const','num'): return set()
        if k == 'id': return s.depn(e[1])
        if k == 'slice': return s.depn(e[1])
        if k == 'index': return (set() if e[1] in s.m.mem else s.depn(e[1])) | s.depe(e[2])
        if k == 'cat': return set().union(*[s.depe(x) for x in e[1]])
        if k == 'un': return s.depe(e[2])
        if k == 'bin': return s.depe(e[2]) | s.depe(e[3])
        if k == 'ite': return s.depe(e[1]) | s.depe(e[2]) | s.depe(e[3])
        raise Exception(k)
    def depb(s, b):
        r = set()
        for x in b:
            if x[0] == 'asg': r |= s.depe(x[3])
            else:
                r |= s.depe(x[1])
                for _, y in x[2]: r |= s.depb(y)
        return r
    # ----- expressions
    def w(s, e):
        k = e[0]
        if k == 'const': return const(e[1])[0]
        if k == 'num': return 32
        if k == 'id': return s.m.width[e[1]]
        if k == 'slice': return e[2]-e[3]+1
        if k == 'index': return s.m.mem[e[1]][0] if e[1] in s.m.mem else 1
        if k == 'cat': return sum(s.w(x) for x in e[1])
        if k == 'un': return s.w(e[2])
        if k == 'bin':
            if e[1] in ('==','!=','<=','>=','<','>'): return 1
            if e[1] in ('<<<','>>>'): return s.w(e[2])
            return max(s.w(e[2]), s.w(e[3]))
        if k == 'ite': return max(s.w(e[2]), s.w(e[3]))
    def ref(s, n):
        m = s.m
        if n in s.inputs: return s.nm[n]
        if n in s.regs or n in m.mem: return 's.' + s.nm[n]
        d = [s.nm[p] for p in s.inputs if p in s.depn(n)]
        return '(' + ' '.join([s.nm[n], 's'] + d) + ')'
    def nat(s, e):
        """value as Nat"""
        x, w = s.ex(e)
        if w == 1: return par(x) + '.toNat' if x not in ('true','false') else ('1' if x == 'true' else '0')
        return x
    def lit(s, v, w):
        if w == 1: return 'true' if v & 1 else 'false'
        return num(v)
    def ex(s, e, ctx=None):
        """(text, width); width 1 is a Bool. ctx: width of the target"""
        k = e[0]
        if k == 'const':
            w, v = const(e[1]); return s.lit(v, w), w
        if k == 'num': return num(e[1]), 32
        if k == 'id': return s.ref(e[1]), s.m.width[e[1]]
        if k == 'slice':
            W = s.m.width[e[1]]; h, l = e[2], e[3]
            assert h < W
            if W == 1: return s.ref(e[1]), 1
            if h == l: return '%s.testBit %d' % (s.ref(e[1]), l), 1
            return 'slc %s %d %d' % (s.ref(e[1]), l, h-l+1), h-l+1
        if k == 'index':
            if e[1] in s.m.mem:
                return '%s.getD %s 0' % (s.ref(e[1]), par(s.nat(e[2]))), s.m.mem[e[1]][0]
            assert e[2][0] == 'num', e
            if s.m.width[e[1]] == 1: return s.ref(e[1]), 1
            return '%s.testBit %d' % (s.ref(e[1]), e[2][1]), 1
        if k == 'cat':
            es = e[1]; tot = s.w(e); parts = []; off = tot
            for x in es:
                off -= s.w(x)
                v = s.nat(x)
                if v == '0': continue
                parts.append(par(v) if off == 0 else '%s * 2 ^ %d' % (par(v), off))
            if tot == 1: return s.ex(es[0])
            return ' + '.join(parts) if parts else '0', tot
        if k == 'un':
            x, w = s.ex(e[2])
            if e[1] == '+':
                return x, w
            if e[1] == '~':
                W = max(w, ctx or w)
                if W == 1: return '!' + par(x), 1
                return '2 ^ %d - 1 - %s' % (W, par(s.nat(e[2]))), W
            raise Exception(e)
        if k == 'bin':
            op, a, b = e[1], e[2], e[3]
            wa, wb = s.w(a), s.w(b)
            if op in ('==','!='):
                if wa == 1 and wb == 1:
                    return '%s %s %s' % (par(s.ex(a)[0]), op, par(s.ex(b)[0])), 1
                return '%s %s %s' % (par(s.nat(a)), op, par(s.nat(b))), 1
            if op in ('<=','>=','<','>'):
                o = {'<=':'≤','>=':'≥'}.get(op, op)
                return 'decide (%s %s %s)' % (par(s.nat(a)), o, par(s.nat(b))), 1
            W = max(wa, wb, ctx or 1)
            if op in ('&','|','^'):
                if W == 1:
                    return '%s %s %s' % (par(s.ex(a)[0]), {'&':'&&','|':'||','^':'^^'}[op], par(s.ex(b)[0])), 1
                return '%s %s %s' % (par(s.nat(a)), {'&':'&&&','|':'|||','^':'^^^'}[op], par(s.nat(b))), W
            if op == '+':
                assert W > 1
                return '(%s + %s) %% 2 ^ %d' % (par(s.nat(a)), par(s.nat(b)), W), W
            if op == '-':
                assert W > 1
                return '(2 ^ %d + %s - %s) %% 2 ^ %d' % (W, par(s.nat(a)), par(s.nat(b)), W), W
            W = max(wa, ctx or wa)
            if op == '<<<': return '%s * 2 ^ %s %% 2 ^ %d' % (par(s.nat(a)), par(s.nat(b)), W), W
            if op == '>>>': return '%s / 2 ^ %s' % (par(s.nat(a)), par(s.nat(b))), W
            raise Exception(op)
        if k == 'ite':
            c = s.cond(e[1])
            W = max(s.w(e[2]), s.w(e[3]), ctx or 1)
            if W == 1:
                return 'if %s then %s else %s' % (c, s.ex(e[2])[0], s.ex(e[3])[0]), 1
            return 'if %s then %s else %s' % (c, s.nat(e[2]), s.nat(e[3])), W
        raise Exception(k)
    def cond(s, e):
        x, w = s.ex(e)
        return x if w == 1 else par(x) + ' ≠ 0'
    def val(s, e, w):
        """value of e assigned to a net of width w"""
        x, we = s.ex(e, w)
        if w == 1:
            if we == 1: return x
            return par(x) + '.testBit 0'
        if we == 1: return s.nat(e)
        if we > w: return '%s %% 2 ^ %d' % (par(x), w)
        return x
    # ----- statements
    def pat(s, sel, pats):
        """condition, None for always"""
        parts = sel[1] if sel[0] == 'cat' else [sel]
        alts = []
        for p in pats:
            bits = patbits(p); cs = []; i = 0
            if len(bits) < sum(s.w(x) for x in parts): bits = ['0']*(sum(s.w(x) for x in parts)-len(bits)) + bits
            for x in parts:
                wx = s.w(x); b = bits[i:i+wx]; i += wx
                if all(c == 'z' for c in b): continue
                if wx == 1:
                    t = s.ex(x)[0]
                    cs.append(par(t) + (' = true' if b[0] == '1' else ' = false'))
                elif 'z' not in b:
                    cs.append('%s = %d' % (par(s.ex(x)[0]), int(''.join(b), 2)))
                else:
                    for j, c in enumerate(b):
                        if c != 'z': cs.append('%s.testBit %d = %s' % (par(s.ex(x)[0]), wx-1-j, 'true' if c == '1' else 'false'))
            if not cs: return None
            alts.append(' ∧ '.join(cs))
        return ' ∨ '.join(alts) if len(alts) > 1 else alts[0]
    def block(s, n, b, e, ind, cnt):
        w = s.m.width[n]
        pre = ''
        for x in b:
            if x[0] == 'asg':
                _, t, r, rhs = x
                if r is None: e = s.val(rhs, w)
                else:
                    h, l = r
                    if w == 1: e = s.val(rhs, 1)
                    else:
                        v = s.val(rhs, h-l+1)
                        if h == l: v = par(v) + '.toNat'
                        e = 'put %s %d %d %s' % (par(e), l, h-l+1, par(v))
            else:
                _, sel, br = x
                if not re.fullmatch(r"[\w.']+", e):
                    cnt[0] += 1
                    v = 'e%d' % cnt[0]
                    pre += 'let %s := %s\n%s' % (v, e, ind)
                    e = v
                res = []; els = e
                for pats, body in br:
                    c = s.pat(sel, pats)
                    t = s.block(n, body, e, ind + '  ', cnt)
                    if c is None: els = t; break
                    res.append((c, t))
                txt = ''
                for c, t in res: txt += 'if %s then %s\n%selse ' % (c, par2(t, ind), ind)
                txt += par2(els, ind)
                if not res: txt = els
                e = txt
        return pre + e
    # ----- output
    def ty(s, w): return 'Bool' if w == 1 else 'Nat'
    def args(s, ins):
        return ''.join(' (%s : %s)' % (s.nm[p], s.ty(s.m.width[p])) for p in ins)
    def emit(s):
        m, g = s.m, s.g; o = g.out
        o.append('namespace %s\n' % m.lname)
        o.append('/-- %s:%d-%d: registers, memories and instances of module `%s`. -/\nstructure S where' % (g.file, m.line, m.end, m.name))
        for r in s.regs: o.append('  %s : %s' % (s.nm[r], s.ty(m.width[r])))
        for r in m.mem: o.append('  %s : List Nat' % s.nm[r])
        for k, name, _ in m.inst: o.append('  u_%s : %s.S' % (clean(name), g.mods[k].lname))
        if not (s.regs or m.mem or m.inst): o.append('  mk ::')
        o.append('')
        emitted = set()
        def em(n):
            if n in emitted or n in s.inputs or n in s.regs or n in m.mem: return
            emitted.add(n)
            def vis(e):
                if e[0] in ('id','slice'): em(e[1])
                elif e[0] == 'index':
                    if e[1] not in m.mem: em(e[1])
                    vis(e[2])
                elif e[0] == 'cat': [vis(x) for x in e[1]]
                elif e[0] == 'un': vis(e[2])
                elif e[0] == 'bin': vis(e[2]); vis(e[3])
                elif e[0] == 'ite': vis(e[1]); vis(e[2]); vis(e[3])
            def visb(b):
                for x in b:
                    if x[0] == 'asg': vis(x[3])
                    else:
                        vis(x[1])
                        for _, y in x[2]: visb(y)
            if n in s.subout:
                k, name, p, con = s.subout[n]
                sub = g.mods[k].gen
                for q in sub.inputs:
                    if q in sub.depn(p): vis(con[q])
                if p in sub.regs: body = 's.u_%s.%s' % (clean(name), sub.nm[p])
                else:
                    body = '%s.%s s.u_%s' % (g.mods[k].lname, sub.nm[p], clean(name))
                    for q in sub.inputs:
                        if q in sub.depn(p): body += ' ' + par(s.val(con[q], g.mods[k].width[q]))
            else:
                kind, b = s.defs[n]
                if kind == 'e': vis(b); body = s.val(b, m.width[n])
                else: visb(b); body = s.block(n, b, 'X', '  ', [0])
            ins = [p for p in s.inputs if p in s.depn(n)]
            a, b = m.lines['inst ' + s.subout[n][1]] if n in s.subout else m.lines[n]
            o.append('/-- %s:%s. -/' % (g.file, a if a == b else '%d-%d' % (a, b)))
            o.append('@[netlist] def %s (s : S)%s : %s :=\n  %s' % (s.nm[n], s.args(ins), s.ty(m.width[n]), body))
        need = []
        for n in list(s.defs) + list(s.subout): em(n)
        # step
        o.append('\n/-- %s:%d-%d: one rising clock edge (`always @(posedge ...)`). -/' % (g.file, m.line, m.end))
        o.append('@[netlist] def step (s : S)%s : S :=' % s.args(s.inputs))
        fs = []
        for r in s.regs:
            c, e = s.nexts[r]
            v = s.val(e, m.width[r])
            if c is not None: v = 'if %s then %s else s.%s' % (s.cond(c), v, s.nm[r])
            fs.append('%s := %s' % (s.nm[r], v))
        for r in m.mem:
            v = 's.' + s.nm[r]
            for c, n, ix, e in s.writes:
                if n != r: continue
                t = '%s.set %s %s' % (par(v), par(s.nat(ix)), par(s.val(e, m.mem[r][0])))
                v = 'if %s then %s else %s' % (s.cond(c), t, v) if c is not None else t
            fs.append('%s := %s' % (s.nm[r], v))
        for k, name, con in m.inst:
            sub = g.mods[k].gen
            a = ''.join(' ' + par(s.val(con[q], g.mods[k].width[q])) for q in sub.inputs)
            fs.append('u_%s := %s.step s.u_%s%s' % (clean(name), g.mods[k].lname, clean(name), a))
        o.append('  { ' + '\n    '.join(fs) + ' }' if fs else '  s')
        # init
        o.append('\n/-- %s:%d-%d: the initial values given in the netlist. -/' % (g.file, m.line, m.end))
        cs = []
        for r in s.regs:
            if r in m.init:
                w, v = const(m.init[r]); cs.append('s.%s = %s' % (s.nm[r], s.lit(v, m.width[r])))
        for r in m.mem:
            w, d = m.mem[r]
            vals = [const(m.meminit[r][i])[1] for i in range(d)]
            if len(set(vals)) == 1: cs.append('s.%s = List.replicate %d %s' % (s.nm[r], d, num(vals[0])))
            else: cs.append('s.%s = [%s]' % (s.nm[r], ', '.join(num(v) for v in vals)))
        for k, name, con in m.inst: cs.append('%s.Init s.u_%s' % (g.mods[k].lname, clean(name)))
        o.append('def Init (s : S) : Prop :=\n  ' + (' ∧\n  '.join(cs) if cs else 'True'))
        o.append('\n/-- %s:%d-%d: a state with these initial values; registers without one are 0. -/' % (g.file, m.line, m.end))
        fs, ps = [], []
        for r in s.regs:
            if r in m.init: ps.append('rfl')
            fs.append('%s := %s' % (s.nm[r], s.lit(const(m.init[r])[1] if r in m.init else 0, m.width[r])))
        for r in m.mem:
            w, d = m.mem[r]
            vals = [const(m.meminit[r][i])[1] for i in range(d)]
            ps.append('rfl')
            if len(set(vals)) == 1: fs.append('%s := List.replicate %d %s' % (s.nm[r], d, num(vals[0])))
            else: fs.append('%s := [%s]' % (s.nm[r], ', '.join(num(v) for v in vals)))
        for k, name, con in m.inst:
            fs.append('u_%s := %s.powerUp' % (clean(name), g.mods[k].lname)); ps.append('%s.powerUp_init' % g.mods[k].lname)
        o.append('def powerUp : S :=\n  { ' + '\n    '.join(fs) + ' }' if fs else 'def powerUp : S := {}')
        o.append('\ntheorem powerUp_init : Init powerUp := ' + (ps[0] if len(ps) == 1 else '⟨' + ', '.join(ps) + '⟩' if ps else 'trivial'))
        o.append('\nend %s\n' % m.lname)

def par2(t, ind):
    if re.match(r'let \w+ := if', t): return '(\n' + ind + '  ' + t + ')'
    return '(%s)' % t if ('\n' in t or ' then ' in t or 'let ' in t) else t

def load(path):
    LINES.clear()
    p = P(tokenize(open(path).read()))
    mods = []
    while p.peek()[0] != 'eof': mods.append(p.module())
    return mods

def key(ms, n, memo):
    """a module up to the order of ports, declarations, registers and instances"""
    if n not in memo:
        m = ms[n]
        memo[n] = repr((sorted(m.ports), sorted((a, b, sorted(m.kind[a])) for a, b in m.width.items()), sorted(m.init.items()),
            sorted(m.mem.items()), sorted((a, sorted(b.items())) for a, b in m.meminit.items()), sorted(m.assign.items()),
            sorted(m.comb.items()), sorted(map(repr, m.seq)),
            sorted((nm, key(ms, k, memo), repr(sorted(c.items()))) for k, nm, c in m.inst)))
    return memo[n]

def main():
    path, ns, out = sys.argv[1:4]
    shared, imp = {}, 'Verif.Netlist.Basic'
    name = path.split('/')[-1]
    mods = load(path)
    for bp, bns in zip(sys.argv[4::2], sys.argv[5::2]):
        bmods = load(bp)
        imp = 'Verif.Netlist.' + bns
        g0 = Gen(bmods, bns, bp.split('/')[-1])
        bm, nm, memo, memo2 = {m.name: m for m in bmods}, {m.name: m for m in mods}, {}, {}
        keys = {key(bm, n, memo): n for n in bm}
        for n in nm:
            if n not in shared and key(nm, n, memo2) in keys:
                b = bm[keys[key(nm, n, memo2)]]
                b.lname = bns + '.' + clean(b.name)
                shared[n] = b
    g = Gen(mods, ns, name, shared)
    with open(out, 'w') as f:
        f.write('/- Generated by netlist/v2lean.py from verilog_src/%s.  Do not edit. -/\nimport %s\n\nset_option autoImplicit false\nset_option linter.unusedVariables false\n\nnamespace Netlist.%s\nopen Netlist\n\n' % (name, imp, ns))
        f.write('\n'.join(g.out))
        f.write('\nend Netlist.%s\n' % ns)
main()
