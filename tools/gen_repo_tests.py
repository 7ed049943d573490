"""Translate the evaluator unit tests of /repo into Lean examples (Verif/Tests/RepoTests.lean)."""
import re, sys
BASE = '/repo/src/test/java/com/github/sidhant92/boolparser/application/'
def jstr(s):  # Java literal body -> Lean literal body (same escapes are used)
    return s.replace("\\'", "'")
def val(v, env):
    v = v.strip()
    m = re.fullmatch(r'"(.*)"', v)
    if m: return '.str j!"%s"' % jstr(m.group(1))
    if v in ('true', 'false'): return '.bool ' + v
    if re.fullmatch(r'-?\d+', v): return '.int (%s)' % v
    if re.fullmatch(r'-?\d+[lL]', v): return '.long (%s)' % v[:-1]
    if re.fullmatch(r'-?\d+\.\d+', v): return '.dbl j!"%s"' % v
    m = re.fullmatch(r'LocalDate\.of\((\d+), (\d+), (\d+)\)', v)
    if m: return '.date ⟨%s, %s, %s⟩' % m.groups()
    m = re.fullmatch(r'LocalDateTime\.of\((\d+), (\d+), (\d+), (\d+), (\d+), (\d+)\)', v)
    if m: return '.datetime ⟨⟨%s, %s, %s⟩, %s, %s, %s, 0⟩' % m.groups()
    m = re.fullmatch(r'Arrays\.asList\((.*)\)', v)
    if m: return '.list [%s]' % ', '.join(val(x, env) for x in m.group(1).split(','))
    m = re.fullmatch(r'new String\[\]\{(.*)\}', v)
    if m: return '.arr j!"array" [%s]' % ', '.join(val(x, env) for x in m.group(1).split(','))
    if v in env:
        k, x = env[v]
        if k == 'map': return '.map [%s]' % ', '.join('(j!"%s", %s)' % e for e in x)
        if k == 'list': return '.list [%s]' % ', '.join(x)
        return x
    raise ValueError(v)
out, skipped = [], []
for fn, arith in (('BooleanExpressionEvaluatorTest.java', False), ('ArithmeticExpressionEvaluatorTest.java', True)):
    src = open(BASE + fn).read()
    for m in re.finditer(r'@Test\s+public void (\w+)\(\)[^{]*\{(.*?)\n    \}', src, re.S):
        name, body = m.groups()
        env, lastcall = {}, None
        n = 0
        body = re.sub(r'\n\s{12,}', ' ', body)
        try:
            for line in body.split('\n'):
                line = line.strip()
                if not line or line.startswith('//'): continue
                a = re.match(r'final Map<String, Object> (\w+) = new HashMap', line)
                if a: env[a.group(1)] = ('map', []); continue
                a = re.match(r'(?:final )?List<\w+> (\w+) = new ArrayList', line)
                if a: env[a.group(1)] = ('list', []); continue
                a = re.match(r'(\w+)\.put\("(\w+)", (.*)\);', line)
                if a: env[a.group(1)][1].append((a.group(2), val(a.group(3), env))); continue
                a = re.match(r'(\w+)\.add\((.*)\);', line)
                if a: env[a.group(1)][1].append(val(a.group(2), env)); continue
                a = re.match(r'(?:final )?(?:Try<\w+> )?(\w+) = \w+\.evaluate\((.*)\);', line)
                if a:
                    args = a.group(2)
                    b = re.match(r'"((?:[^"\\]|\\.)*)",\s*(.*)$', args)
                    rest = [x.strip() for x in b.group(2).split(',')]
                    if rest[0].startswith('new HashMap'): d = '[]'
                    else: d = val(rest[0], env)[5:]
                    df = 'none'
                    if len(rest) > 1:
                        df = '(some j!%s)' % rest[1]
                    e = jstr(b.group(1))
                    lastcall = ('evaluateArith env0 j!"%s" %s' % (e, d)) if arith else ('evaluate env0 j!"%s" %s %s' % (e, d, df))
                    continue
                exp = None
                a = re.match(r'assert(True|False)\(\w+\.get\(\)\);', line)
                if a: exp = '.success ' + a.group(1).lower()
                a = re.match(r'assertEquals\(\w+\.get\(\), (.*)\);', line)
                if a: exp = '.success (%s)' % (val(a.group(1), env) if arith else val(a.group(1), env).replace('.bool ', ''))
                a = re.match(r'assertTrue\(\w+\.getCause\(\) instanceof (\w+)\);', line)
                if a:
                    exp = '.failure .' + {'DataNotFoundException':'dataNotFound','InvalidUnaryOperand':'invalidUnaryOperand','InvalidDataType':'invalidDataType','UnsupportedToken':'unsupportedToken','HeterogeneousArrayException':'heterogeneousArray','InvalidContainerTypeException':'invalidContainerType','InvalidExpressionException':'invalidExpression'}[a.group(1)]
                a = re.match(r'assertTrue\(\(?\(\(?BigDecimal\) ?\w+\.get\(\)\)\.compareTo\(new BigDecimal\("(.*?)"\)\) == 0\);', line)
                if a:
                    out.append('/-- `%s` (%s) -/\nexample : decEquals (%s) j!"%s" = true := by krfl' % (name, fn[:-5], lastcall, a.group(1))); n += 1; continue
                if exp:
                    out.append('/-- `%s` (%s) -/\nexample : %s = %s := by krfl' % (name, fn[:-5], lastcall, exp)); n += 1; continue
                if re.match(r'assertTrue\(\w+\.is(Success|Failure)\(\)\);', line):
                    if 'Failure' in line:
                        out.append('/-- `%s` (%s) -/\nexample : isFailure (%s) = true := by krfl' % (name, fn[:-5], lastcall)); n += 1
                    continue
                skipped.append((name, line))
            if n == 0: skipped.append((name, 'NO ASSERT'))
        except Exception as ex:
            skipped.append((name, repr(ex)))
hdr = '''import Verif.Model.Api
import Verif.Util.KRfl
/-!
# The repository's own evaluator tests, run on the model

Generated by /verif/tools/gen_repo_tests.py from
`src/test/java/com/github/sidhant92/boolparser/application/*Test.java`. These are tests of the model
against the behaviour the maintainers recorded, not theorems of the property list.
-/

namespace BoolParser.RepoTests

/-- A fixed world: some day as today, exact powers. -/
def env0 : Env := ⟨⟨2024, 1, 1⟩, fun a b => .fin (a ^ b.toNat) 0, fun a b => .fin (a.trunc ^ b.trunc.toNat) 0⟩

/-- `assertTrue(result.isFailure())`. -/
def isFailure {α : Type} : Outcome α → Bool
  | .failure _ => true
  | _ => false

/-- `assertTrue(((BigDecimal) result.get()).compareTo(new BigDecimal(text)) == 0)`. -/
def decEquals (o : Outcome Value) (text : JStr) : Bool :=
  match o, Dec.parse text with
  | .success (.dec d), some e => d.cmp e == .eq
  | _, _ => false

'''
open('/verif/lean/Verif/Tests/RepoTests.lean', 'w').write(hdr + '\n\n'.join(out) + '\n\nend BoolParser.RepoTests\n')
print(len(out), 'examples'); [print('SKIP', *s) for s in skipped]
