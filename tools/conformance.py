#!/usr/bin/env python3
"""Translates the tests of the repository into Lean examples about the model (lean/Verif/Conformance/*.lean).

The Rhai scripts of the tests are interpreted here (the Rhai interpreter is not part of the model); every call of the input
interface becomes a call of the model. Files read by a script are taken from the test."""
import re, csv, io, sys, os

REPO = '/repo'
OUT = '/verif/lean/Verif/Conformance'

# ---------- Rust text ----------
def unescape(s):
    s = re.sub(r'\\\n\s*', '', s)
    out, i = '', 0
    while i < len(s):
        if s[i] == '\\':
            c = s[i+1]
            out += {'n': '\n', 't': '\t', '"': '"', '\\': '\\', "'": "'"}[c]
            i += 2
        else:
            out += s[i]; i += 1
    return out

STR = r'(?:r#"(?P<raw>.*?)"#|"(?P<plain>(?:[^"\\]|\\.)*)")'
def strings(text):
    r = []
    for m in re.finditer(STR, text, re.S):
        r.append((m.start(), m.group('raw') if m.group('raw') is not None else unescape(m.group('plain')), m.group('raw') is not None))
    return r

def functions(src):
    res = {}
    for m in re.finditer(r'(?P<test>#\[test\]\s*)?fn (\w+)\([^)]*\)[^{;]*\{', src):
        name = m.group(2)
        i, depth = m.end(), 1
        while depth:
            t = re.compile(STR + r"|'(?:[^'\\]|\\.)'|[{}]", re.S).search(src, i)
            if t.group(0) == '{': depth += 1
            elif t.group(0) == '}': depth -= 1
            i = t.end()
        res[name] = (bool(m.group('test')), src[m.end():i-1])
    return res

# ---------- Rhai ----------
TOK = re.compile(r'\s+|//[^\n]*|(?P<str>"(?:[^"\\]|\\.)*")|(?P<chr>\'(?:[^\'\\]|\\.)\')|(?P<int>\d+)|(?P<id>\w+)|(?P<op>==|!=|<=|>=|[-+(){}\[\],;.<>=])')
def tokens(s):
    i, r = 0, []
    while i < len(s):
        m = TOK.match(s, i)
        assert m, s[i:i+40]
        i = m.end()
        for k in ('str', 'chr', 'int', 'id', 'op'):
            if m.group(k) is not None: r.append((k, m.group(k)))
    return r + [('eof', '')]

class Fail(Exception): pass

def L(s):
    return '"' + s.replace('\\', '\\\\').replace('"', '\\"').replace('\n', '\\n') + '".toList'

class Interp:
    def __init__(self, text, files):
        self.t, self.i, self.files, self.frames, self.n, self.vars = tokens(text), 0, files, [], 0, {}
        self.checks = []
    def peek(self): return self.t[self.i][1] if self.t[self.i][0] in ('op', 'id') else None
    def kind(self): return self.t[self.i][0]
    def eat(self, x):
        if self.peek() != x: raise Exception('expected %s got %s' % (x, self.t[self.i]))
        self.i += 1
    def fresh(self, p):
        self.n += 1
        return p + str(self.n)
    def emit(self, kind, op):
        if kind == 'call':
            self.frames.append('call (%s) <|' % op); return None
        v = self.fresh({'obj': 'x', 'acc': 'a', 'expr': 'e', 'tag': 't', 'val': 'r'}[kind])
        self.frames.append('%s (%s) fun %s =>' % (kind, op, v)); return v
    def script(self):
        try:
            while self.kind() != 'eof': self.stmt()
            end = '.done'
        except Fail:
            end = '.fail'
        return '\n'.join('  ' + f for f in self.frames) + '\n  ' + end
    def skip_block(self):
        self.eat('{'); d = 1
        while d:
            x = self.peek(); self.i += 1
            if x == '{': d += 1
            if x == '}': d -= 1
    def block(self):
        self.eat('{')
        while self.peek() != '}': self.stmt()
        self.eat('}')
    def stmt(self):
        p = self.peek()
        if p == ';': self.i += 1; return
        if p == 'let':
            self.i += 1; name = self.t[self.i][1]; self.i += 1; self.eat('=')
            self.vars[name] = self.expr(); self.eat(';'); return
        if p == 'if':
            self.i += 1; c = self.expr()
            if c: self.block()
            else: self.skip_block()
            if self.peek() == 'else':
                self.i += 1
                if c: self.skip_block()
                else: self.block()
            return
        if p == 'for':
            self.i += 1; name = self.t[self.i][1]; self.i += 1; self.eat('in')
            l = self.expr(); at = self.i
            if not l: self.skip_block()
            for v in l:
                self.i = at; self.vars[name] = v; self.block()
            return
        self.expr()
        if self.peek() != '}' and self.kind() != 'eof': self.eat(';')
    def expr(self):
        l = self.addition()
        if self.peek() in ('==', '!=', '<', '>', '<=', '>='):
            op = self.peek(); self.i += 1
            r = self.addition()
            if isinstance(l, tuple) or isinstance(r, tuple):
                return ('expr', self.emit('expr', '.relate "%s" %s %s' % (op, self.term(l), self.term(r))))
            return {'==': l == r, '!=': l != r}[op]
        return l
    def addition(self):
        l = self.unary()
        while self.peek() == '+':
            self.i += 1
            r = self.unary()
            raise Fail()     # no function `+` for two objects
        return l
    def term(self, v):
        if isinstance(v, tuple) and v[0] == 'obj': return '(.obj .%s %s)' % (v[1], v[2])
        if isinstance(v, tuple) and v[0] == 'acc': return '(.acc %s)' % v[1]
        if isinstance(v, int): return '(.int %d)' % v
        raise Exception(v)
    def unary(self):
        if self.peek() == '+':
            self.i += 1
            return self.add(self.unary())
        return self.postfix()
    def add(self, v):
        if v[0] == 'obj':
            self.emit('call', '.add .%s %s' % (v[1], v[2])); return v
        if v[0] == 'expr':
            self.emit('call', '.addExpr %s' % v[1]); return v
        raise Exception(v)
    def args(self):
        self.eat('('); r = []
        while self.peek() != ')':
            r.append(self.expr())
            if self.peek() == ',': self.i += 1
        self.eat(')'); return r
    def postfix(self):
        v = self.atom()
        while True:
            p = self.peek()
            if p == '[':
                self.i += 1; k = self.expr(); self.eat(']')
                if isinstance(v, tuple) and v[0] == 'csv': v = v[1][k] if k < len(v[1]) else []
                else:
                    if k >= len(v): raise Fail()
                    v = v[k]
            elif p == '.':
                self.i += 1; name = self.t[self.i][1]; self.i += 1
                a = self.args() if self.peek() == '(' else None
                v = self.member(v, name, a)
            else: return v
    def member(self, v, name, a):
        if isinstance(v, list) and name == 'slice':
            b = '9223372036854775807' if a[1] == ('end',) else str(a[1])
            if all(isinstance(x, str) for x in v) or all(isinstance(x, list) for x in v):
                lean = self.lean(v)
                res = v[a[0]:] if a[1] == ('end',) else v[a[0]:a[1]+1]
                self.checks.append('example : Rhai.slice (%s) %d %s = .ok (%s) := by decide +kernel' % (lean, a[0], b, self.lean(res)))
            return v[a[0]:] if a[1] == ('end',) else v[a[0]:a[1]+1]
        if v[0] == 'csv':
            if name == 'rows': return v[1]
            if name == 'row':
                if a[0] >= len(v[1]):
                    self.checks.append('example : (Rhai.row (%s) %d).isOk = false := by decide +kernel' % (self.lean(v[1]), a[0]))
                    raise Fail()
                self.checks.append('example : Rhai.row (%s) %d = .ok (%s) := by decide +kernel' % (self.lean(v[1]), a[0], self.lean(v[1][a[0]])))
                return v[1][a[0]]
        if v[0] == 'obj':
            attr = '.' + name if a is None else '(.%sPart %d)' % (name, a[0])
            return ('acc', self.emit('acc', '.attr .%s %s %s' % (v[1], v[2], attr)))
        if v[0] == 'acc' and name in ('contains', 'contains_not'):
            return ('expr', self.emit('expr', '.relate "%s" %s %s' % (name, self.term(v), self.term(a[0]))))
        raise Exception((v, name, a))
    def lean(self, v):
        if isinstance(v, str): return L(v)
        return '[' + ', '.join(self.lean(x) for x in v) + ']'
    def dyn(self, v):
        if isinstance(v, bool): return '.other'
        if isinstance(v, int): return '.int %d' % v
        if isinstance(v, str): return '.str ' + L(v)
        return '.other'
    def dyns(self, v):
        if isinstance(v, tuple) and v[0] == 'range': return '(Rhai.range %d %d).map .int' % (v[1], v[2])
        return '[' + ', '.join(self.dyn(x) for x in v) + ']'
    def tag1(self, kind, x):
        if isinstance(x, int): return ('tag', '(tagInt .%s %d)' % (kind, x))
        return ('tag', self.emit('tag', 'tagStr .%s %s' % (kind, L(x))))
    def atom(self):
        k, x = self.t[self.i]
        if k == 'str': self.i += 1; return unescape(x[1:-1])
        if k == 'chr': self.i += 1; return unescape(x[1:-1])
        if k == 'int': self.i += 1; return int(x)
        if x == '(':
            self.i += 1; v = self.expr(); self.eat(')'); return v
        if x == '[':
            self.i += 1; r = []
            while self.peek() != ']':
                r.append(self.expr())
                if self.peek() == ',': self.i += 1
            self.eat(']'); return r
        assert k == 'id', (k, x)
        self.i += 1
        if self.peek() != '(':
            if x in self.vars: return self.vars[x]
            if x == 'true': return True
            if x == 'false': return False
            if x == 'optional': return ('tag', 'optionalTag')
            if x == 'end': return ('end',)
            raise Exception(x)
        a = self.args()
        if x == 'slot': return ('obj', 'slot', self.emit('obj', '.slot %s' % L(a[0])))
        if x == 'choice': return ('obj', 'choice', self.emit('obj', '.choice %s [%s]' % (L(a[0]), ', '.join(t[1] for t in a[1:]))))
        if x == 'chooser': return ('obj', 'chooser', self.emit('obj', '.chooser %s (%s)' % (L(a[0]), self.dyns(a[1] if len(a) > 1 else []))))
        if x in ('min', 'max', 'parts'): return self.tag1(x, a[0])
        if x == 'bounds':
            if isinstance(a[0], int): return ('tag', '(boundsInt %d %d)' % tuple(a))
            return ('tag', self.emit('tag', 'boundsStr %s %s' % (L(a[0]), L(a[1]))))
        if x == 'optional_if': return ('tag', '(optionalIf %s)' % ('true' if a[0] else 'false'))
        if x == 'constraint': return a[0]
        if x == 'add': return self.add(a[0])
        if x == 'set_name':
            self.emit('call', '.setName .%s %s %s' % (a[0][1], a[0][2], L(a[1]))); return a[0]
        if x == 'range': return ('range', a[0], a[1])
        if x == 'set_arguments':
            self.emit('call', '.setArguments (%s)' % self.dyns(a[0])); return None
        if x == 'readFile':
            if a[0] not in self.files: raise Fail()
            return self.files[a[0]]
        if x == 'read_csv':
            if a[0] not in self.files: raise Fail()
            sep = a[1] if len(a) > 1 else ','
            rows = list(csv.reader(io.StringIO(self.files[a[0]]), delimiter=sep))
            self.checks.append("example : Csv.readCsv (some (utf8 %s)) '%s' = .ok [%s] := by decide +kernel" % (
                L(self.files[a[0]]), sep, ', '.join('[%s]' % ', '.join(L(c) for c in r) for r in rows)))
            return ('csv', rows)
        raise Exception((x, a))

def script(text, files={}):
    it = Interp(text, files)
    s = it.script()
    return s, it.checks

# ---------- expectations of the end-to-end tests ----------
class Source:
    def __init__(self, path):
        self.path = path
        self.src = open(os.path.join(REPO, path)).read()
        self.fns = functions(self.src)
        self.consts = {}
        for m in re.finditer(r'const (\w+): &str =\s*' + STR + ';', self.src, re.S):
            self.consts[m.group(1)] = m.group('raw') if m.group('raw') is not None else unescape(m.group('plain'))
        # helper functions with one template
        self.helpers = {}
        for n, (test, body) in self.fns.items():
            if not test:
                ss = strings(body)
                if len(ss) == 1: self.helpers[n] = ss[0][1]
    def value(self, e):
        """the string an expression denotes"""
        e = e.strip().lstrip('&').strip()
        m = re.fullmatch(STR, e, re.S)
        if m: return m.group('raw') if m.group('raw') is not None else unescape(m.group('plain'))
        if e in self.consts: return self.consts[e]
        m = re.fullmatch(r'(\w+)\((.*)\)', e, re.S)
        if m and m.group(1) in self.helpers:
            t = self.helpers[m.group(1)]
            if m.group(2).strip():
                arg = self.value(m.group(2).strip().rstrip(','))
                t = re.sub(r'\{(extra_constraint|relation)\}', lambda _: arg, t)
            return t
        raise KeyError(e)

def args_of(src, start):
    """the arguments of the call whose '(' is at start"""
    i, depth, parts, last = start + 1, 1, [], start + 1
    rx = re.compile(STR + r'|[()\[\],{}]', re.S)
    while True:
        t = rx.search(src, i)
        g = t.group(0)
        if g in '([{' : depth += 1
        elif g in ')]}':
            depth -= 1
            if depth == 0:
                parts.append(src[last:t.start()])
                return [p.strip() for p in parts if p.strip()]
        elif g == ',' and depth == 1:
            parts.append(src[last:t.start()]); last = t.end()
        i = t.end()

FLAGS = {'--any': 'any := true', '--greedy': 'greedy := true', '--no-cs': 'noCs := true', '--no-cs-simp': 'noCsSimp := true'}
def options(argv):
    """(fields, iterations, input files) of the command line"""
    f, n, files, i = [], None, [], 0
    while i < len(argv):
        a = argv[i]
        if a in FLAGS: f.append(FLAGS[a]); i += 1
        else:
            v = argv[i+1]; i += 2
            if a == '--timeout':
                if v == '0s': n = 0
            elif a == '--threads': f.append('threads := %s' % v)
            elif a == '--max-neighbors': f.append('maxNeighbors := %s' % v)
            elif a == '--output': f.append('outputFile := some %s' % L(v))
            elif a == '--input': files.append(v)
            else: raise KeyError(a)
    return f, n, files

def lit(s):
    return '"' + s.replace('\\', '\\\\').replace('"', '\\"').replace('\n', '\\n') + '"'

ITER = {'set_arguments_can_override_timeout_inside_input': 2}   # iterations for particular tests
DEFAULT_ITER = 2
SCHEDULE_ONLY = {'part_indexed_slot_constraint_changes_the_schedule'}
SKIP = {}          # tests that are about something outside the model

def e2e(path, out, scripts_cache):
    S = Source(path)
    count = 0
    for name, (test, body) in S.fns.items():
        if not test: continue
        if name in SKIP:
            out.append('-- %s: %s' % (name, SKIP[name])); continue
        files = {}
        for m in re.finditer(r'dir\.write\(', body):
            a = args_of(body, m.end() - 1)
            files[S.value(a[0])] = S.value(a[1])
        binds = {m.group(1): m.group(2) for m in re.finditer(r'let (\w+) =\s*([a-z_0-9]+\((?:%s|[^;"])*\));' % STR.replace('(?P<raw>', '(').replace('(?P<plain>', '('), body, re.S)}
        binds = {}
        for m in re.finditer(r'let (\w+)(?:: \w+)? =\s*(\w+)(\()', body):
            a = args_of(body, m.start(3))
            binds[m.group(1)] = (m.group(2), a)
        def val(e):
            e = e.strip().lstrip('&').strip()
            if e in binds:
                f, a = binds[e]
                return S.value('%s(%s)' % (f, ', '.join(a)))
            m = re.fullmatch(r'dir\.output_prefix\((.*)\)', e)
            return S.value(e)
        runs = {}
        for v, (f, a) in binds.items():
            if f == 'run_constraint_case':
                runs[v] = ([], val(a[0]))
            elif f in ('run_cli', 'run_cli_in_dir'):
                if f == 'run_cli_in_dir': a = a[1:]
                argv = [x.strip() for x in a[0].strip().lstrip('&').strip()[1:-1].split(',') if x.strip()]
                argv = ['PREFIX' if x == '&prefix' else S.value(x) for x in argv]
                text = None
                if a[1] != 'None':
                    m = re.fullmatch(r'Some\((.*)\)', a[1], re.S)
                    text = val(m.group(1).strip().rstrip(','))
                runs[v] = (argv, text)
        m = re.search(r'assert_constraint_changes_solution(\()', body)
        expect = {}
        if m:
            a = args_of(body, m.start(1))
            runs['baseline'] = ([], val(a[0])); runs['constrained'] = ([], val(a[1]))
            expect['constrained'] = {'out': S.value(a[2])}
            expect['baseline'] = {}
        for v in runs:
            e = expect.setdefault(v, {})
            for m in re.finditer(r'\b%s\.(assert_\w+)(\()' % v, body):
                a = args_of(body, m.start(2))
                if m.group(1) == 'assert_stdout_exact': e['out'] = S.value(a[0])
                if m.group(1) == 'assert_no_stdout': e['out'] = ''
                if m.group(1) == 'assert_failure': e['fail'] = True
        saved = {}
        for m in re.finditer(r'dir\.assert_file_exact(\()', body):
            a = args_of(body, m.start(1))
            n = S.value(a[0])
            saved['scheduling' if 'scheduling' in n else 'assignment'] = S.value(a[1])
        out.append('/-! %s -/' % name)
        base = {}
        for v, (argv, text) in runs.items():
            f, n, infiles = options(argv)
            if infiles:
                text = ''
                for x in infiles: text += files[x] + '\n'
            it = DEFAULT_ITER if n is None else n
            it = ITER.get(name, it)
            s, checks = script(text, files)
            sname = '%s_%s' % (name, v) if len(runs) > 1 else name
            out.append('def %s : Script :=\n%s' % (sname, s))
            out.extend(checks)
            o = '{ opts with %s }' % ', '.join(f) if f else 'opts'
            e = expect[v]
            if e.get('fail'):
                out.append('example : rejects (run %d %s %s) = true := by decide +kernel' % (it, o, sname))
            elif saved:
                out.append('example : run %d %s %s = .ok (.tables %s %s) := by decide +kernel' % (it, o.replace('outputFile := some ' + L('PREFIX'), 'outputFile := some []'), sname,
                    '(some %s)' % L(saved['scheduling']) if 'scheduling' in saved else 'none', L(saved['assignment'])))
            elif name in SCHEDULE_ONLY:
                out.append('-- the choosers are interchangeable: the test relies on the MIP solver for the second table')
                out.append('example : schedule (run %d %s %s) = some %s := by decide +kernel' % (it, o, sname, lit(e['out'].split('\n\n')[0])))
            elif 'out' in e:
                out.append('example : printed (run %d %s %s) = .inr %s := by decide +kernel' % (it, o, sname, lit(e['out'])))
            elif name in ONEOF:
                call = 'printed (run %d %s %s)' % (it, o, sname)
                out.append('example : %s := by decide +kernel' % ' ∨ '.join('%s = %s' % (call, v) for v in ONEOF[name](S, body)))
            else:
                out.append('example : (run %d %s %s).isOk = true := by decide +kernel' % (it, o, sname))
            count += 1
    return count

def oneof_strings(S, body):
    vals = [S.value(m.group(1)) for m in re.finditer(r'let expected_\w+ = ("(?:[^"\\]|\\.)*");', body, re.S)]
    return ['.inr ' + lit(v) for v in vals]
ONEOF = {'unconstrained_multi_slot_instance_still_has_a_unique_optimum': oneof_strings}

HEAD = '''import Verif.Conformance.Runner
import Verif.Model.Csv
/-
%s: the tests of the repository, replayed on the model. Generated by tools/conformance.py.
-/
namespace Wassign.Conf.%s
open Reader Main Conf

set_option linter.unusedVariables false

'''
def write(name, path, lines):
    open(os.path.join(OUT, name + '.lean'), 'w').write(HEAD % (path, name) + '\n'.join(lines) + '\n\nend Wassign.Conf.%s\n' % name)


def pred(name, script_name, expr):
    return 'example : %s := by decide +kernel' % expr.replace('$', script_name)

INPUT = {
 'should_parse_everything_without_error': '(data $).slots = [".".toList, "x".toList, "a-b\'c d".toList] ∧ (data $).choices.map (fun c => String.ofList c.name) = ["w1", "w2", "w3", "~[2] w3", "~[3] w3"] ∧ '
   '(data $).choosers.map (fun c => String.ofList c.name) = ["p1", "p2", "p3", "p4", "p5"] ∧ (data $).schedCons.length = 6 ∧ (data $).asgCons.length = 3',
 'should_create_scheduling_constraints_for_multi_part_choices': '(data $).schedCons.length = 6',
 'should_auto_generate_set_if_none_is_given': '(parse opts $).isOk = true ∧ (data $).slots.length = 1',
 'should_not_accept_too_many_preferences': 'rejects (parse opts $) = true',
 'should_not_accept_too_few_preferences': 'rejects (parse opts $) = true',
 'should_not_accept_choices_with_zero_minimum_chooser_count': 'rejects (parse opts $) = true',
 'should_not_accept_input_without_choices': 'rejects (parse opts $) = true',
 'should_not_accept_input_without_choosers': 'rejects (parse opts $) = true',
 'should_not_accept_ambiguous_fuzzy_name_lookup': 'rejects (parse opts $) = true',
 'should_not_accept_duplicate_names_after_renaming': 'rejects (parse opts $) = true',
 'should_parse_slots': '(data $).slots = ["a".toList, "b".toList]',
 'should_parse_choices': '(data $).choices = [⟨"a".toList, 1, 1, none, false⟩, ⟨"b".toList, 2, 3, none, true⟩, ⟨"c".toList, 5, 7, some 3, false⟩, '
   '⟨"~[2] c".toList, 5, 7, none, false⟩] ∧ (data $).choosers.map (·.prefs) = [[6, 4, 0, 0]]',
 'should_parse_choosers': '(data $).choosers = [⟨"a".toList, [5, 4]⟩, ⟨"b".toList, [2, 0]⟩]',
 'should_accept_string_preferences_and_range': '(data $).choices.length = 2 ∧ (data $).choosers.length = 2',
 'should_parse_csv_input_with_slice_and_numeric_strings': '(data $).choices.length = 2 ∧ (data $).choosers.length = 1',
 'read_input_should_accept_let_and_preserve_string_literals': '(data $).slots = ["var slot".toList] ∧ (data $).choices.map (·.name) = ["var choice".toList] ∧ (data $).choosers.map (·.name) = ["var chooser".toList]',
 'read_input_should_apply_set_arguments': '(let o := effectiveOptions (readInput (outside 0).opt (new opts) $).2; (o.timeout, o.threads, o.maxNeighbors, o.greedy)) = (5, 4, 9, true)',
 'read_input_should_accept_read_file': '(data $).slots = ["from file".toList]',
 'read_input_should_support_csv_row_accessors': '(data $).choices.length = 2',
 'read_input_should_support_part_aware_accessors': '(parse opts $).isOk = true ∧ (readInput (outside 0).opt (new opts) $).2.synced.exprs.map (fun e => e.left.part) = [1, 1]',
}
KINDS = {'ChoiceIsInSlot': 'choiceIsInSlot', 'ChoiceIsNotInSlot': 'choiceIsNotInSlot'}
def constraint_text(t):
    m = re.fullmatch(r'Constraint \{ kind: (\w+), left: (\d+), right: (\w+)\((\d+)\), extra: (.*) \}', t)
    low = lambda x: x[0].lower() + x[1:]
    extra = '.none' if m.group(5) == 'None' else '.limitOp .' + low(re.fullmatch(r'SlotSizeLimitOp\((\w+)\)', m.group(5)).group(1))
    return '⟨.%s, %s, .%s %s, %s⟩' % (low(m.group(1)), m.group(2), low(m.group(3)), m.group(4), extra)

def inputs(path, out):
    S = Source(path)
    n = 0
    for name, (test, body) in S.fns.items():
        if not test: continue
        files = {}
        m = re.search(r'(?:write_temp_file|fs::write)(\()', body)
        ss = strings(body)
        text = [x for _, x, raw in ss if raw][0]
        if '{}' in text:
            a = args_of(body, m.start(1))
            text = text.replace('{}', 'THEFILE').replace('{{', '{').replace('}}', '}')
            files['THEFILE'] = S.value(a[-1])
        sc, checks = script(text, files)
        out.append('/-! %s -/' % name)
        out.append('def %s : Script :=\n%s' % (name, sc))
        out.extend(checks)
        if name == 'should_parse_constraints':
            cs = [constraint_text(x) for _, x, raw in ss if x.startswith('Constraint {')]
            out.append('def required : List Constraint := [' + ',\n  '.join(cs) + ']')
            out.append('example : (∀ c ∈ required, c ∈ (data %s).schedCons ++ (data %s).asgCons) ∧ (∀ c ∈ (data %s).schedCons ++ (data %s).asgCons, c ∈ required) := by decide +kernel' % ((name,) * 4))
        else:
            out.append(pred(name, name, INPUT[name]))
        n += 1
    return n

SCHED = {
 'choice_is_in_slot_constraint_works': 's[0]? == some (some 0) && common s',
 'choice_is_not_in_slot_constraint_works': 's[0]? != some (some 0) && common s',
 'choices_are_in_same_slot_constraint_works': 's[0]? == s[2]? && common s',
 'choices_are_not_in_same_slot_constraint_works': 's[0]? != s[2]? && common s',
 'choices_have_offset_constraint_works': 's[2]? == some (some 0) && s[3]? == some (some 1) && common s',
 'slot_has_limited_size_eq_constraint_works': 'decide (zero s = 2)',
 'slot_has_limited_size_neq_constraint_works': 'decide (zero s ≠ 2)',
 'slot_has_limited_size_lt_constraint_works': 'decide (zero s < 3)',
 'slot_has_limited_size_leq_constraint_works': 'decide (zero s ≤ 2)',
 'slot_has_limited_size_gt_constraint_works': 'decide (zero s > 2)',
 'slot_has_limited_size_geq_constraint_works': 'decide (zero s ≥ 3)',
}
def solvers(out):
    minimal = Source('tests/common/mod.rs').consts['INPUT_MINIMAL']
    out.append('/-- `common_check`. -/\ndef common (s : Scheduling) : Bool := (s.take 4).countP (· == some 0) == 2\n')
    out.append('/-- `count_slot_zero`. -/\ndef zero (s : Scheduling) : Nat := s.countP (· == some 0)\n')
    n = 0
    for path in ['tests/scheduling_solver_test.rs', 'tests/assignment_solver_test.rs']:
        S = Source(path)
        kind = 'sched' if 'scheduling' in path else 'asg'
        for name, (test, body) in S.fns.items():
            if not test: continue
            m = re.search(r'parse_data(\()', body)
            a = args_of(body, m.start(1))[0]
            text = minimal if a == 'INPUT_MINIMAL' else S.value(a)
            sc, checks = script(text, {})
            sname = kind + '_' + name
            out.append('/-! %s: %s -/' % (path, name))
            out.append('def %s : Script :=\n%s' % (sname, sc))
            if kind == 'sched':
                if name == 'minimal': out.append('example : schedulings 1 %s = [[some 0]] := by decide +kernel' % sname)
                elif name == 'works_without_constraints': out.append('example : allSchedulings 1 %s common = true := by decide +kernel' % sname)
                else: out.append('example : allSchedulings 16 %s (fun s => %s) = true := by decide +kernel' % (sname, SCHED[name]))
            else:
                sch = re.search(r'with_data\(&data, vec!\[(.*?)\]\)', body).group(1)
                sch = '[' + re.sub(r'Some\((\d)\)', r'some \1', sch) + ']'
                want = [x for _, x, raw in strings(body) if not raw][-1]
                rows = [r.split(',')[1:] for r in want.split(';')]
                out.append('example : assigned %s %s = some [%s] := by decide +kernel' % (sname, sch, ', '.join('[' + ', '.join('"%s"' % c for c in r) + ']' for r in rows)))
            n += 1
    return n

if __name__ == '__main__':
    SKIP.update({
        'missing_input_file_is_reported_as_an_error': 'no input file (C63)',
        'unreadable_input_file_is_reported_as_an_error': 'no input file (C63)',
        'missing_input_file_failure_is_reported_on_stderr': 'no input file (C63)',
        'output_write_failure_is_reported_as_an_error': 'a failing write (C63)',
        'invalid_timeout_string_is_rejected': 'command line (C74)',
        'invalid_critical_set_timeout_string_is_rejected': 'command line (C74)',
        'invalid_thread_count_value_is_rejected': 'command line (clap)',
        'invalid_preference_exponent_value_is_rejected': 'command line (clap)',
        'invalid_max_neighbors_value_is_rejected': 'command line (clap)',
    })
    which = sys.argv[1:]
    for name, path in [('InputApi', 'tests/e2e_input_api.rs'), ('Constraints', 'tests/e2e_constraints.rs'), ('Solutions', 'tests/e2e_solutions.rs'),
                       ('FileInputs', 'tests/e2e_file_inputs.rs'), ('CliArgs', 'tests/e2e_cli_args.rs'), ('CliOutput', 'tests/e2e_cli_output.rs')]:
        if which and name not in which: continue
        lines = []
        n = e2e(path, lines, {})
        write(name, path, lines)
        print(name, n)

    if not which or 'Input' in which:
        lines = []
        n = inputs('tests/input_test.rs', lines) + inputs('src/input/input_reader.rs', lines)
        write('Input', 'tests/input_test.rs, src/input/input_reader.rs', lines)
        print('Input', n)
    if not which or 'Solvers' in which:
        lines = []
        n = solvers(lines)
        write('Solvers', 'tests/scheduling_solver_test.rs, tests/assignment_solver_test.rs', lines)
        print('Solvers', n)
