#!/usr/bin/env python3
"""Translates the unit tests of /repo/tests (Unity) into scripts run on the model of Verif/Model/Codes.lean and writes
lean/Verif/Props/Conformance2.lean. Constants are taken from the headers of /repo/src. Statements without meaning for the model
(allocation, non-null pointers, `error_tk`) are skipped; the number of assertions translated and skipped is printed."""
import re, os, sys
R = '/repo/'
FILES = ['lexer/test_lexer.c', 'opcode/test_opcode.c', 'assemble/test_assemble.c', 'parser/test_parser1.c', 'parser/test_parser2.c',
         'forward_reference/test_forward_reference.c', 'error/test_error.c', 'generator/test_generator.c']

# ---- constants of the headers
consts = {}
def cnum(s): return int(s, 0)
for h in sorted(os.listdir(R + 'src')):
    if not h.endswith('.h'): continue
    for n, v in re.findall(r'^#define\s+(\w+)\s+\(?(-?(?:0x[0-9A-Fa-f]+|0b[01]+|\d+))\)?\s*$', open(R + 'src/' + h).read(), re.M):
        consts[n] = cnum(v)
    for n, v in re.findall(r'^#define\s+(\w+)\s+\(?(-?(?:0x[0-9A-Fa-f]+|0b[01]+|\d+))\)?\s*(?://|/\*).*$', open(R + 'src/' + h).read(), re.M):
        consts[n] = cnum(v)
# defines made of other names
for h in sorted(os.listdir(R + 'src')):
    if not h.endswith('.h'): continue
    for n, e in re.findall(r'^#define\s+(\w+)\s+(\(.*\)|\w+)\s*$', open(R + 'src/' + h).read(), re.M):
        if n not in consts:
            try: consts[n] = eval(e, {}, consts)
            except Exception: pass
TOK = {'LABEL': 'label', 'LITERAL': 'literal', 'INSTRUCTION': 'instruction', 'IMMEDIATE': 'immediate', 'OPEN_PARENTHESIS': 'openParenthesis',
       'CLOSE_PARENTHESIS': 'closeParenthesis', 'COMMA': 'comma', 'EQUAL_SIGN': 'equalSign', 'X_REGISTER': 'xRegister', 'Y_REGISTER': 'yRegister',
       'BASE': 'base', 'EQU_DIRECTIVE': 'equDirective', 'DEFINE_DIRECTIVE': 'defineDirective', 'ORG_DIRECTIVE': 'orgDirective',
       'END_DIRECTIVE': 'endDirective', 'ACCUMULATOR': 'accumulator', 'NULL': 'null'}
MN = re.findall(r'\b([A-Z]{3})_BITFIELD', open(R + 'src/bitfields.h').read())
MN = sorted(set(MN))

def nocomment(t):
    out, i = [], 0
    while i < len(t):
        if t[i] == '"':
            j = i + 1
            while t[j] != '"': j += 2 if t[j] == '\\' else 1
            out.append(t[i:j+1]); i = j + 1
        elif t.startswith('//', i):
            while i < len(t) and t[i] != '\n': i += 1
        elif t.startswith('/*', i):
            i = t.index('*/', i) + 2
        else: out.append(t[i]); i += 1
    return ''.join(out)

def unesc(s):
    return s.encode().decode('unicode_escape').encode('latin1')

def lean(b):
    if all(x < 128 for x in b):
        return '(b! "%s")' % ''.join({9: '\\t', 10: '\\n', 13: '\\r', 34: '\\"', 92: '\\\\'}.get(x, chr(x)) for x in b)
    return '[%s]' % ', '.join(map(str, b))

def split_args(s):
    out, d, i, cur = [], 0, 0, ''
    while i < len(s):
        c = s[i]
        if c == '"':
            j = i + 1
            while s[j] != '"': j += 2 if s[j] == '\\' else 1
            cur += s[i:j+1]; i = j + 1; continue
        if c in '([{': d += 1
        if c in ')]}': d -= 1
        if c == ',' and d == 0: out.append(cur.strip()); cur = ''
        else: cur += c
        i += 1
    if cur.strip(): out.append(cur.strip())
    return out

def statements(t):
    """statements of a function body, braces of `if (x) {` removed, `for` loops kept as one statement"""
    out, i, cur = [], 0, ''
    d = 0
    while i < len(t):
        c = t[i]
        if c == '"':
            j = i + 1
            while t[j] != '"': j += 2 if t[j] == '\\' else 1
            cur += t[i:j+1]; i = j + 1; continue
        if c == '(': d += 1
        if c == ')': d -= 1
        if d == 0 and c == ')' and re.match(r'\s*for\s*\(', cur):
            cur += c; i += 1
            m = re.compile(r'\s*\{').match(t, i)
            if m:
                k, dd = m.end(), 1
                while dd:
                    if t[k] == '{': dd += 1
                    if t[k] == '}': dd -= 1
                    k += 1
                body = t[m.end():k-1]
            else:
                k = t.index(';', i) + 1
                body = t[i:k]
            out.append(('for', cur.strip(), statements(body))); cur = ''; i = k; continue
        if d == 0 and c == '{' and re.search(r'\bif\s*\(', cur): cur = ''; i += 1; continue
        if d == 0 and c == '{' and '=' in cur:
            j = t.index('}', i); cur += t[i:j+1]; i = j + 1; continue
        if d == 0 and c in '{}': i += 1; continue
        if d == 0 and c == ';':
            if cur.strip(): out.append(('s', ' '.join(cur.split()) if '"' not in cur else cur.strip(), None))
            cur = ''
        else: cur += c
        i += 1
    return out

def unparen(e):
    e = e.strip()
    while e.startswith('(') and e.endswith(')'):
        d, ok = 0, True
        for k, c in enumerate(e):
            if c == '(': d += 1
            if c == ')': d -= 1
            if d == 0 and k < len(e) - 1: ok = False; break
        if not ok: break
        e = e[1:-1].strip()
    return re.sub(r'(?<![\w])\((lexer|tk|instr|symtab|operand|index|unresolved|ref)\)', r'\1', e)

class Test:
    def __init__(s, name, macros, glob):
        s.name, s.macros, s.env, s.vars, s.acts, s.done, s.skipped, s.notes = name, macros, dict(glob), {}, [], 0, 0, []
        s.roms, s.fpos = {}, 0
    def emit(s, a): s.acts.append(a)
    def skip(s, st): s.skipped += 1; s.notes.append(st)
    def const(s, e):
        try: return eval(re.sub(r'(0x[0-9A-Fa-f]+|\b\d+)U\b', r'\1', e), {}, {**consts, **s.vars})
        except Exception: return None
    def ptr(s, e):
        """(bytes, offset) of a pointer expression into a line"""
        e = unparen(e)
        m = re.fullmatch(r'"((?:[^"\\]|\\.)*)"', e)
        if m: return (unesc(m[1]), 0)
        m = re.fullmatch(r'(\w+)', e)
        if m and m[1] in s.env: return s.env[m[1]]
        m = re.fullmatch(r'&\s*\(?(\w+)\[(\d+)\]\)?', e)
        if m and m[1] in s.env: b, o = s.env[m[1]]; return (b, o + int(m[2]))
        m = re.fullmatch(r'(\w+)\s*\+\s*(\d+)', e)
        if m and m[1] in s.env: b, o = s.env[m[1]]; return (b, o + int(m[2]))
        return None
    def pcx(s, e):
        e = unparen(e)
        if e == 'pc': return 't.pc'
        c = s.const(e)
        return None if c is None else str(c)
    def call(s, e, want):
        """emit the call e with expected result want (Lean Option Int); False if unknown"""
        e = unparen(e)
        m = re.fullmatch(r'(\w+)\((.*)\)', e, re.S)
        if not m: return False
        f, a = m[1], [unparen(x) for x in split_args(m[2])]
        # nested find_operand
        if 'find_operand(lexer)' in a: s.emit('.findOperand'); a = ['operand' if x == 'find_operand(lexer)' else x for x in a]
        if f == 'lex_line':
            p = s.ptr(a[0])
            if p is None: return False
            n = a[4]
            if n.endswith('++'): n = n[:-2]; post = True
            else: post = False
            s.emit('.lexLine %d %s %s' % (s.const(n), lean(p[0][p[1]:]), want))
            if post: s.vars[n] += 1
        elif f == 'parse_line': s.emit('.parseLine ' + want)
        elif f in ('parse_instr_tree', 'parse_label_tree', 'parse_directive_tree', 'parse_base_tree'):
            s.emit('.%sTree %s %s' % (f.split('_')[1], a[1], want))
        elif f == 'parse_label_declaration':
            if a[2] == 'pc': s.emit('.declare none ' + want)
            else: s.emit('.declare (some %d) %s' % (s.const(a[2]), want))
        elif f == 'parse_operand': s.emit('.parseOperand ' + want)
        elif f == 'parse_label_operand': s.emit('.parseLabelOperand ' + want)
        elif f == 'parse_addr_mode':
            if a[3] == 'operand_status': s.emit('.parseAddrMode none ' + want)
            else: s.emit('.parseAddrMode (some %d) %s' % (s.const(a[3]), want))
        elif f == 'parse_forward_ref_addr_mode': s.emit('.parseForwardRefAddrMode ' + want)
        elif f == 'apply_masks': s.emit('.applyMasks %d %s' % (s.const(a[1]), want))
        elif f == 'search_symbol':
            m = re.fullmatch(r'lexer->sequence\[\(?(\d+)\)?\]->str', a[1])
            if m: s.emit('.searchToken %s %s' % (m[1], want))
            elif s.ptr(a[1]): s.emit('.search %s %s' % (lean(s.ptr(a[1])[0]), want))
            else: return False
        elif f in ('lex_literal', 'lex_directive', 'lex_text', 'lex'):
            p = s.ptr(a[0])
            if p is None: return False
            s.emit('.%s %s %d %s' % ({'lex_literal': 'lexLiteral', 'lex_directive': 'lexDirective', 'lex_text': 'lexText', 'lex': 'lex'}[f], lean(p[0]), p[1], want))
        elif f == 'lex_instruction': s.emit('.lexInstruction ' + want)
        elif f == 'token_strncpy': s.emit('.tokenStrncpy %s %s' % (lean(s.ptr(a[1])[0]), a[2]))
        elif f == 'token_strcpy':
            if a[1] == 'NULL': return False
            s.emit('.tokenStrcpy ' + lean(s.ptr(a[1])[0].rstrip(b'\0')) + ' ' + want)
        elif f == 'add_token': s.emit('.addToken ' + want)
        elif f == 'create_forward_ref':
            p = s.ptr(a[0])
            s.emit('.createRef %d %s' % (s.const(a[5]), lean(p[0])))
        elif f == 'add_forward_ref': s.emit('.addRef ' + want)
        elif f == 'generate_code': s.emit('.generate ' + want)
        elif f == 'resolve_label_ref': s.emit('.resolveLabel ' + want)
        elif f == 'resolve_forward_ref': s.emit('.resolveRef ' + want)
        elif f == 'get_opcode': s.emit('.getOpcode ' + want)
        elif f == 'str_to_mnemonic' or f == 'get_addr_bitfield' or f.startswith('assemble_'): return False
        elif f == 'strlen' and a[0] == 'tk->str': s.emit('.check fun t => decide (some ((t.r.tk.str.length : Nat) : Int) = %s)' % want)
        else: return False
        return True
    def place(s, e):
        """Lean expression (Option-free) for a readable location, with kind"""
        e = unparen(e)
        m = re.fullmatch(r'lexer->sequence\[(\d+)\]->(\w+)', e)
        if m: return 'slot', m[2], int(m[1])
        if re.fullmatch(r'(prev|curr)->\w+', e): return 'last', e.split('->')[1], 0
        m = re.fullmatch(r'(tk|operand|instr|ref|lexer|unresolved)->(\w+)', e)
        if m: return m[1], m[2], 0
        m = re.fullmatch(r'ref->instr->(\w+)', e)
        if m: return 'refinstr', m[1], 0
        return None
    TOKX = {'slot': '(t.lx.seq[%d]?.getD initToken)', 'tk': 't.r.tk', 'operand': '(t.operand.getD initToken)',
            'last': '(t.lx.seq[t.lx.curr - 1]?.getD initToken)'}
    INSX = {'instr': 't.instr', 'refinstr': '(t.ref.getD default).instr'}
    def eq_int(s, a, b):
        for want, e in ((a, b), (b, a)):
            want, e = unparen(want), unparen(e)
            w = None
            c = s.const(want)
            if c is not None and s.call(e, '(some (%d))' % c): return True
            pl = s.place(e)
            if e == 'operand_status' and c is not None: s.emit('.check fun t => t.status == %d' % c); return True
            if e == 'addr_mask' and c is not None: s.emit('.check fun t => t.mask == %d' % c); return True
            if e == 'pc' and c is not None: s.emit('.check fun t => t.pc == %d' % c); return True
            if e == 'written' and c is not None: s.emit('.check fun t => t.written == %d' % c); return True
            m = re.fullmatch(r'fread\(.*\)', e)
            if m: return None
            if pl is None: continue
            k, f, i = pl
            # the values parse_label_declaration and resolve_label_ref leave in the token of the label are not read again and not modelled
            if f == 'value' and (k == 'slot' and s.name == 'test_parse_label_declaration' or k == 'operand' and s.acts[-1].startswith('.resolveLabel')): return None
            if k in s.TOKX:
                x = s.TOKX[k] % i if k == 'slot' else s.TOKX[k]
                if f == 'type' and want.startswith('TOKEN_'): s.emit('.check fun t => %s.type == .%s' % (x, TOK[want[6:]])); return True
                if f == 'value' and c is not None: s.emit('.check fun t => %s.value == %d' % (x, c)); return True
            if k in s.INSX:
                x = s.INSX[k]
                if f == 'mnemonic':
                    if want == 'NULL_MNEMONIC': s.emit('.check fun t => %s.mnemonic == none' % x); return True
                    if want in MN: s.emit('.check fun t => %s.mnemonic == some .%s' % (x, want)); return True
                if f == 'addr_bitfield' and c is not None: s.emit('.check fun t => %s.addrBitfield == %d' % (x, c)); return True
                if f == 'addr_bitflag' and c is not None: s.emit('.check fun t => %s.addrBitflag == %d' % (x, c)); return True
            if k == 'lexer' and f == 'curr': s.emit('.check fun t => t.lx.curr == %d' % c); return True
            if k == 'unresolved' and f == 'curr': s.emit('.check fun t => t.un.curr == %d' % c); return True
            if k == 'unresolved' and f == 'size': s.emit('.check fun t => t.un.refs.length == %d' % c); return True
            if k == 'ref' and c is not None:
                g = {'pc': 'pc', 'line_num': 'lineNum', 'operand_status': 'operandStatus'}.get(f)
                if g: s.emit('.check fun t => (t.ref.getD default).%s == %d' % (g, c)); return True
        return False
    @staticmethod
    def norm(st):
        """parentheses around a name, a number or a slot of the sequence (from macro arguments) removed, outside strings"""
        parts = re.split(r'("(?:[^"\\]|\\.)*")', st)
        for k in range(0, len(parts), 2):
            while True:
                q = re.sub(r'(?<![\w\]])\((-?\w+|lexer->sequence\[\d+\]|\w+->\w+)\)', r'\1', parts[k])
                if q == parts[k]: break
                parts[k] = q
        return ''.join(parts)
    def stmt(s, st):
        st = s.norm(st.strip())
        # macro call
        m = re.match(r'(\w+)\s*\((.*)\)\s*$', st, re.S)
        if m and m[1] in s.macros:
            params, body = s.macros[m[1]]
            args = split_args(m[2])
            sub = dict(zip(params, args))
            b = re.sub(r'"(?:[^"\\]|\\.)*"|\b\w+\b', lambda q: sub.get(q[0], q[0]), body)
            for k, x, y in statements(b): s.stmt(x)
            return
        m = re.fullmatch(r'(?:const )?char \*(\w+)\s*=\s*("(?:[^"\\]|\\.)*")', st, re.S) or re.fullmatch(r'(\w+)\s*=\s*("(?:[^"\\]|\\.)*")', st, re.S)
        if m: s.env[m[1]] = s.ptr(m[2]); return
        m = re.fullmatch(r'(?:const char \*)?(\w+)\s*=\s*(\w+(?:\s*\+\s*\d+)?)', st)
        if m and s.ptr(m[2]) is not None: s.env[m[1]] = s.ptr(m[2]); return
        m = re.fullmatch(r'(\w+)\s*\+=\s*(\d+)', st)
        if m and m[1] in s.env: b, o = s.env[m[1]]; s.env[m[1]] = (b, o + int(m[2])); return
        m = re.fullmatch(r'(\w+)\+\+', st)
        if m and m[1] in s.env: b, o = s.env[m[1]]; s.env[m[1]] = (b, o + 1); return
        m = re.fullmatch(r'strncpy\((\w+), ("(?:[^"\\]|\\.)*"), \d+\)', st)
        if m: s.env[m[1]] = s.ptr(m[2]); return
        m = re.fullmatch(r'(\w+)\[(\d+)\]\s*=\s*EOF', st)
        if m and m[1] in s.env:
            b = bytearray(s.env[m[1]][0]); k = int(m[2])
            if k < len(b): b[k] = 255
            else: b.append(255); assert len(b) == k + 1
            s.env[m[1]] = (bytes(b), 0); return
        m = re.fullmatch(r'(?:int )?expected\s*=\s*(.*)', st)
        if m: s.vars['expected'] = s.const(m[1]); return
        m = re.fullmatch(r'(?:int )?(exp_bytes|line_num|curr_forward_ref)\s*=\s*(\d+)', st)
        if m: s.vars[m[1]] = int(m[2]); return
        m = re.fullmatch(r'\(?(line_num|curr_forward_ref)\)?\+\+', st)
        if m: s.vars[m[1]] = s.vars.get(m[1], 0) + 1; return
        m = re.fullmatch(r'(?:unsigned char )(\w+)\[\]\s*=\s*\{(.*)\}', st, re.S)
        if m: s.roms[m[1]] = [int(x, 0) for x in m[2].replace('\n', ' ').split(',') if x.strip()]; return
        m = re.fullmatch(r'(?:int )?pc\s*=\s*(\w+)', st)
        if m: s.emit('.setPc %d' % s.const(m[1])); return
        if re.fullmatch(r'pc\s*\+=\s*written', st): s.emit('.advance'); return
        m = re.fullmatch(r'pc\s*\+=\s*(\d+)', st)
        if m: s.emit('.addPc ' + m[1]); return
        m = re.fullmatch(r'instr->mnemonic\s*=\s*(ILLEGAL_MNEMONIC|-1|0x\w+)', st)
        if m: s.emit('.update fun t => { t with instr := { t.instr with mnemonic := none } }'); return
        m = re.fullmatch(r'instr->mnemonic\s*=\s*([A-Z]\w+)', st)
        if m: s.emit('.update fun t => { t with instr := { t.instr with mnemonic := some .%s } }' % m[1]); return
        m = re.fullmatch(r'instr->(addr_bitfield|addr_bitflag)\s*=\s*(\w+)', st)
        if m: s.emit('.update fun t => { t with instr := { t.instr with %s := %d } }' % ({'addr_bitfield': 'addrBitfield', 'addr_bitflag': 'addrBitflag'}[m[1]], s.const(m[2]))); return
        if st == 'instr->addr_bitflag = addr_mask & instr->addr_bitfield':
            s.emit('.update fun t => { t with instr := { t.instr with addrBitflag := BitVec.ofInt 32 t.mask &&& t.instr.addrBitfield } }'); return
        if re.fullmatch(r'reset_instruction\(instr\)', st): s.emit('.update fun t => { t with instr := resetInstruction t.instr }'); return
        m = re.fullmatch(r'tk->type\s*=\s*TOKEN_(\w+)', st)
        if m: s.emit('.update fun t => { t with r := { t.r with tk := { t.r.tk with type := .%s } } }' % TOK[m[1]]); return
        m = re.fullmatch(r'tk->value\s*=\s*(\w+?)U?', st)
        if m: s.emit('.update fun t => { t with r := { t.r with tk := { t.r.tk with value := %d } } }' % s.const(m[1])); return
        if re.fullmatch(r'(struct SymbolTable \*)?symtab = init_symbol_table\(\)', st): s.emit('.update fun t => { t with tab := initSymbolTable }'); return
        if re.fullmatch(r'(struct Lexer \*)?lexer = init_lexer\(.*\)', st): s.emit('.update fun t => { t with lx := initLexer %s }' % re.search(r'"[^"]*"', st)[0].join(['(b! ', ')'])); return
        if re.fullmatch(r'(struct Token \*)?tk = init_token\(\)', st): s.emit('.update fun t => { t with r := ⟨initToken, none⟩ }'); return
        if re.fullmatch(r'(struct Instruction \*)?instr = init_instruction\(\)', st): s.emit('.update fun t => { t with instr := initInstruction }'); return
        if re.fullmatch(r'(struct Unresolved \*)?unresolved = init_unresolved\(\)', st): s.emit('.update fun t => { t with un := Codes.initUnresolved }'); return
        if re.fullmatch(r'FILE \*f = fopen\(.*\)', st) or re.fullmatch(r'f = fopen\(.*\)', st): s.emit('.update fun t => { t with f := .empty }'); return
        m = re.fullmatch(r'fseek\(f, (\w+), SEEK_SET\)', st)
        if m: s.fpos = s.const(m[1]); return
        if re.fullmatch(r'operand = find_operand\(lexer\)', st): s.emit('.findOperand'); return
        m = re.fullmatch(r'(?:int )?(?:operand_status|addr_mask|written)\s*=\s*(\w+\(.*\))', st, re.S)
        if m and s.call(m[1], 'none'): return
        m = re.fullmatch(r'ref = (create_forward_ref\(.*\))', st)
        if m and s.call(m[1], 'none'): return
        m = re.fullmatch(r'ref = unresolved->refs\[(\w+)\]', st)
        if m: s.emit('.update fun t => { t with ref := (t.un.refs[%d]?).join }' % s.const(m[1])); return
        m = re.fullmatch(r'(?:int )?dest_pc = search_symbol\(symtab, unresolved->refs\[(\w+)\]->label\)', st)
        if m: s.emit('.update fun t => { t with ref := (t.un.refs[%d]?).join }' % s.const(m[1])); s.emit('.searchRef'); return
        m = re.fullmatch(r'(?:int )?dest_pc = search_symbol\(symtab, ref->label\)', st)
        if m: s.emit('.searchRef'); return
        m = re.fullmatch(r'TEST_ASSERT_EQUAL_INT\((.*)\)', st, re.S)
        if m:
            a = split_args(m[1])
            e = unparen(a[1])
            q = re.fullmatch(r'(str_to_mnemonic|get_addr_bitfield|assemble_(\w+))\((.*)\)', e)
            if q:
                f, x = q[1], q[3].strip()
                if f == 'str_to_mnemonic':
                    if x == 'NULL': return s.skip(st)
                    w = 'none' if a[0] == 'ILLEGAL_MNEMONIC' else '(some .%s)' % a[0]
                    s.emit('.check fun _ => strToMnemonic %s == %s' % (lean(s.ptr(x)[0]), w)); s.done += 1; return
                if f == 'get_addr_bitfield':
                    if x not in MN: return s.skip(st)
                    s.emit('.check fun _ => getAddrBitfield .%s == %d' % (x, s.const(a[0]))); s.done += 1; return
                xx = 't.instr.addrBitflag' if x == 'instr->addr_bitflag' else str(s.const(x))
                s.emit('.check fun t => assembleMnemonic .%s %s == %d' % (q[2], xx, s.const(a[0]))); s.done += 1; return
            r = s.eq_int(a[0], a[1])
            if r: s.done += 1
            else: s.skip(st)
            return
        m = re.fullmatch(r'TEST_ASSERT_EQUAL_STRING\((.*)\)', st, re.S)
        if m:
            a = split_args(m[1]); w = s.ptr(a[0]); pl = s.place(a[1])
            if pl and w:
                k, f, i = pl; b = w[0].rstrip(b'\0')
                if k in s.TOKX and f == 'str':
                    s.emit('.check fun t => %s.str == %s' % (s.TOKX[k] % i if k == 'slot' else s.TOKX[k], lean(b))); s.done += 1; return
                if k == 'ref' and f in ('label', 'source_line'):
                    s.emit('.check fun t => (t.ref.getD default).%s == %s' % ({'label': 'label', 'source_line': 'sourceLine'}[f], lean(b))); s.done += 1; return
                if k == 'lexer' and f == 'file_name': s.emit('.check fun t => t.lx.fileName == %s' % lean(b)); s.done += 1; return
            return s.skip(st)
        m = re.fullmatch(r'TEST_ASSERT_EQUAL_PTR\((.*)\)', st, re.S)
        if m:
            a = split_args(m[1]); pl = s.place(a[1])
            q = re.fullmatch(r'&\(ref->source_line\[(\d+)\]\)', a[0])
            if pl and q and pl[:2] == ('ref', 'operand_location'):
                s.emit('.check fun t => (t.ref.getD default).operandLocation == %s' % q[1]); s.done += 1; return
            o = 'none' if a[0] == 'NULL' else (lambda p: None if p is None else '(some %d)' % p[1])(s.ptr(a[0]))
            if pl and o:
                k, f, i = pl
                if k in s.TOKX and f == 'buffer_location':
                    s.emit('.check fun t => %s.bufferLocation == %s' % (s.TOKX[k] % i if k == 'slot' else s.TOKX[k], o)); s.done += 1; return
                if k == 'tk' and f == 'error_char': s.emit('.check fun t => t.r.errorChar == %s' % o); s.done += 1; return
                if k == 'lexer' and f == 'line':
                    p = s.ptr(a[0]); s.emit('.check fun t => t.lx.line == some %s' % lean(p[0].split(b'\0')[0])); s.done += 1; return
            q = re.fullmatch(r'lexer->sequence\[(\d+)\]', a[0])
            if q and a[1] == 'operand':
                s.emit('.check fun t => t.operand == t.lx.seq[%s]?' % q[1]); s.done += 1; return
            if a[0] == 'NULL' and a[1] == 'operand': s.emit('.check fun t => t.operand == none'); s.done += 1; return
            q = re.fullmatch(r'find_operand\(lexer\)', a[1])
            if q:
                s.emit('.findOperand')
                q = re.fullmatch(r'lexer->sequence\[(\d+)\]', a[0])
                if q: s.emit('.check fun t => t.operand == t.lx.seq[%s]?' % q[1]); s.done += 1; return
                if a[0] == 'NULL': s.emit('.check fun t => t.operand == none'); s.done += 1; return
            return s.skip(st)
        m = re.fullmatch(r'TEST_ASSERT_EQUAL_INT8_ARRAY\(expected_rom, produced_rom, exp_bytes\)', st)
        if m:
            s.emit('.check fun t => (t.f.bytes.drop %d).take %d == [%s]' % (s.fpos, s.vars['exp_bytes'], ', '.join(map(str, s.roms['expected_rom'][:s.vars['exp_bytes']]))))
            s.done += 1; return
        if st.startswith('TEST_ASSERT'): return s.skip(st)
        if s.call(st, 'none'): return
        m = re.fullmatch(r'fputc\((\w+), f\)', st)
        if m: s.emit('.update fun t => { t with f := t.f.fputc %d }' % s.const(m[1])); return
        m = re.fullmatch(r'insert_symbol\(symtab, ("\w+"), (\w+)\)', st)
        if m: s.emit('.insert %s %d' % (lean(s.ptr(m[1])[0]), s.const(m[2]))); return
        m = re.fullmatch(r'pc = lexer->sequence\[(\d+)\]->value', st)
        if m: s.emit('.update fun t => { t with pc := (t.lx.seq[%s]?.getD initToken).value }' % m[1]); return
        if re.match(r'(destroy_\w+|free|fclose|print_error|rewind|unsigned char|struct|const char \*\w+$|char \*|int \w+$|int written|written = 0|\(line_num\)\+\+|line_num|prev|curr =|source_line)', st): return
        s.notes.append('IGNORED ' + st)
    def body(s, sts):
        for k, x, y in sts:
            if k == 's': s.stmt(x)
            else:
                m = re.search(r'int (\w+) = 0; *\w+ < ([\w>-]+);', x)
                n = 8 if m[2] == 'MAX_TOKENS' else {'unresolved->curr': 4}.get(m[2])
                if n is None: s.notes.append('LOOP ' + x); continue
                for i in range(n):
                    for kk, xx, yy in y: s.stmt(re.sub(r'\b%s\b' % m[1], str(i), xx))

hdr = nocomment(open(R + 'tests/parser/exhaustive_lines.h').read())
glob = {n: (unesc(v), 0) for n, v in re.findall(r'const char \*(\w+)\s*=\s*"((?:[^"\\]|\\.)*)";', hdr)}
out = [open(os.path.join(os.path.dirname(os.path.abspath(__file__)), 'conform2_head.txt')).read()]
tot = [0, 0]
for fn in FILES:
    t = nocomment(open(R + 'tests/' + fn).read())
    macros = {}
    def grab(m):
        macros[m[1]] = ([p.strip() for p in m[2].split(',')], m[3].replace('\\\n', '\n').strip()[1:-1])
        return ''
    t = re.sub(r'#define (\w+)\(([^)]*)\)\s*((?:.*\\\n)*.*)\n', grab, t)
    out.append('/-! tests/%s -/\n' % fn)
    for m in re.finditer(r'void (test_\w+)\(void\)\n\{\n(.*?)\n\}', t, re.S):
        T = Test(m[1], macros, glob if 'parser' in fn else {})
        T.body(statements(m[2]))
        tot[0] += T.done; tot[1] += T.skipped
        if os.environ.get('V'):
            print(fn, m[1], T.done, T.skipped)
            for n in T.notes: print('    ', n[:150])
        if not T.acts or not T.done: continue
        CH = 400
        out.append('/- %s: %d assertions -/' % (m[1], T.done))
        out.append('example : passes [\n    ' + ',\n    '.join(T.acts) + '] = true := by decide +kernel\n')
out.append('end Gaia.Conformance2\n')
open(os.path.join(os.path.dirname(os.path.abspath(__file__)), '..', 'lean/Verif/Props/Conformance2.lean'), 'w').write('\n'.join(out))
print('assertions translated %d, skipped %d' % tuple(tot))
