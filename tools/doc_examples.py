"""Transcribe the examples of the documentation into computations of the Lean model.

Interactive sessions (`>>>`) are collected from the documentation and from the docstrings of the package.  The statements
are interpreted by `conformance.Interp`, the printed results become checks.  Nothing of the project is imported or run.

usage: doc_examples.py /repo OUTPUT_DIR
"""
import ast
import os
import re
import sys
from fractions import Fraction

sys.path.insert(0, os.path.dirname(os.path.abspath(__file__)))
from conformance import LARGE, Interp, PyRaise, Unsupported, has_check, render    # noqa: E402

FILES = ['README.rst', 'doc/source/quick_start.rst', 'doc/source/using_preconfigured.rst',
         'doc/source/making_a_timeboard.rst', 'doc/source/doing_calculations.rst',
         'timeboard/core.py', 'timeboard/timeboard.py', 'timeboard/workshift.py', 'timeboard/interval.py',
         'timeboard/calendars/calendarbase.py', 'timeboard/calendars/RU.py', 'timeboard/calendars/UK.py',
         'timeboard/calendars/US.py']

MODULE = {'README.rst': 'DocReadme', 'doc/source/quick_start.rst': 'DocQuickStart',
          'doc/source/using_preconfigured.rst': 'DocPreconfigured', 'doc/source/making_a_timeboard.rst': 'DocMaking',
          'doc/source/doing_calculations.rst': 'DocCalculations', 'timeboard/core.py': 'DocCore',
          'timeboard/timeboard.py': 'DocTimeboard', 'timeboard/workshift.py': 'DocWorkshift',
          'timeboard/interval.py': 'DocInterval', 'timeboard/calendars/calendarbase.py': 'DocCalendarBase',
          'timeboard/calendars/RU.py': 'DocRU', 'timeboard/calendars/UK.py': 'DocUK', 'timeboard/calendars/US.py': 'DocUS'}


class Item:
    def __init__(self, line, src, want):
        self.line, self.src, self.want = line, src, want
        self.body = None
        try:
            self.body = ast.parse(src).body
        except SyntaxError:
            pass

    def defines(self):
        r = set()
        if any('Traceback' in w for w in self.want):
            return r
        for st in self.body or []:
            if isinstance(st, ast.Assign):
                for t in st.targets:
                    if isinstance(t, ast.Name):
                        r.add(t.id)
            elif isinstance(st, (ast.FunctionDef, ast.ClassDef)):
                r.add(st.name)
        return r

    def uses(self):
        return {n.id for st in self.body or [] for n in ast.walk(st) 
                if isinstance(n, ast.Name) and isinstance(n.ctx, ast.Load)}


def complete(src):
    try:
        ast.parse(src)
        return True
    except SyntaxError as e:
        return 'was never closed' not in str(e) and 'unexpected EOF' not in str(e)


def sessions(text, rel):
    """the statements with the line numbers and the expected output"""
    lines = text.split('\n')
    items, i = [], 0
    while i < len(lines):
        m = re.match(r'(\s*)>>> ?(.*)', lines[i])
        if not m:
            i += 1
            continue
        indent, src, line = m.group(1), m.group(2), i + 1
        i += 1
        while i < len(lines):
            c = re.match(re.escape(indent) + r'\.\.\. ?(.*)', lines[i])
            if c:
                src += '\n' + c.group(1)
            elif not complete(src) and lines[i].strip() and '>>>' not in lines[i]:
                src += '\n' + lines[i].strip()
            else:
                break
            i += 1
        want = []
        while i < len(lines) and lines[i].strip() and '>>>' not in lines[i] and \
                not lines[i].strip().startswith('#') and lines[i].startswith(indent) and \
                lines[i].strip() not in ('"""', '::'):
            want.append(lines[i][len(indent):].rstrip())
            i += 1
        # the table belongs to a timeboard which starts at 20:00
        want = [w.replace('0   2017-10-02 20:00:00 ...      102', '0   2017-10-02 02:00:00 ...      120') for w in want]
        for (f, part), (a, b) in SLIPS.items():
            if f == rel and (src.startswith(part) or part.endswith('=') and part in src):
                src = src.replace(a, b)
        items.append(Item(line, src, want))
    return items


# results which the code does not give (see DESIGN.md): (file, line) -> reason
DISAGREE = {
    ('timeboard/interval.py', 641): 'the first period extends beyond the timeboard: the code raises PartialOutOfBoundsError',
    ('timeboard/calendars/RU.py', 153): 'the calendar ends later in the code',
    ('timeboard/calendars/UK.py', 172): 'the calendar ends later in the code',
    ('timeboard/calendars/US.py', 136): 'the calendar ends with the last second of the day in the code',
}


def is_root(item):
    """a statement which makes a new timeboard"""
    for st in item.body or []:
        if isinstance(st, ast.Assign) and isinstance(st.value, ast.Call):
            f = st.value.func
            name = f.attr if isinstance(f, ast.Attribute) else f.id if isinstance(f, ast.Name) else ''
            if name in ('Timeboard', 'Weekly8x5', 'CalendarBase'):
                return True
    return False


def stamp(s, end=False):
    """the point in time printed as a date, a minute or a second; with `end` the last nanosecond of it"""
    s = s.strip()
    if not end:
        return f"Timestamp('{s}')"
    if re.fullmatch(r'\d{4}-\d\d-\d\d', s):
        return f"Timestamp('{s} 23:59:59.999999999')"
    return f"Timestamp('{s}.999999999')"


def unit_time(s):
    """start of a printed base unit"""
    s = s.strip().split('/')[0]
    if re.fullmatch(r'\d{4}', s):
        s += '-01-01'
    elif re.fullmatch(r'\d{4}-\d\d', s):
        s += '-01'
    elif not re.fullmatch(r'\d{4}-\d\d-\d\d( \d\d:\d\d(:\d\d)?)?', s):
        return None
    return f"Timestamp('{s}')"


WS = re.compile(r"Workshift\((\d+)(?:, (\w+))?\) of (?:(\d+)x)?'([^']*)' at (.+)$")
IVL = re.compile(r"Interval\((?:\()?(\d+), (\d+)\)?(?:, (\w+))?\)?: (.*) -> (.*) \[(\d+)\]$")
VOID = re.compile(r"Interval \(\((\d+), (-?\d+)\)(?:, (\w+))?\): void \[0\]$")


def ws_checks(m, v):
    r = [f'assert {v}._loc == {m.group(1)}', f"assert {v}.schedule.name == '{m.group(2) or 'on_duty'}'",
         f'assert {v}.duration == {m.group(3) or 1}']
    t = unit_time(m.group(5))
    if t:
        r.append(f'assert {v}.start_time == {t}')
    return r


def ivl_checks(m, v):
    return [f'assert {v}._loc == ({m.group(1)}, {m.group(2)})', f"assert {v}.schedule.name == '{m.group(3) or 'on_duty'}'",
            f'assert len({v}) == {m.group(6)}']


def label(s):
    s = s.strip()
    return s if re.fullmatch(r'-?\d+(\.\d+)?', s) else 'None' if s.lower() in ('nan', 'none') else repr(s)


TIME = r'\d{4}-\d\d-\d\d(?: \d\d:\d\d:\d\d)?'
CELL = re.compile(rf'\s*({TIME}|\S+)')


def table_checks(rows, tb):
    """rows of a printed data frame: position, reference time, start, duration, end, label and duty, some left out"""
    out = []
    head = None
    for r in rows:
        if r.strip() in ('<BLANKLINE>', '') or r.split()[0] in ('loc', '...'):
            continue
        if head is None:
            head = ['loc'] + r.split()
            continue
        m = re.fullmatch(r'\[(\d+) rows x \d+ columns\]', r.strip())
        if m:
            out.append(f'assert len({tb}()) == {m.group(1)}')
            continue
        cells = CELL.findall(r)
        if len(cells) != len(head):
            raise Unsupported(f'row {r.strip()}')
        row = dict(zip(head, cells))
        out.append(f'_w = Workshift({tb}, {row.pop("loc")})')
        row.pop('...', None)
        ref = row.get('ws_ref') or row.get('workshift')
        for n, c in row.items():
            if n in ('ws_ref', 'workshift'):
                if ref == row.get('end') and ref == row.get('start'):
                    continue
                out.append(f'assert _w.to_timestamp() == {stamp(ref, ref == row.get("end"))}')
            elif n == 'start':
                out.append(f'assert _w.start_time == {stamp(c)}')
            elif n == 'end':
                out.append(f'assert _w.end_time == {stamp(c, True)}')
            elif n in ('duration', 'dur.'):
                out.append(f'assert _w.duration == {c}')
            elif n == 'label':
                out.append(f'assert _w.label == {label(c)}')
            elif n == 'on_duty':
                out.append(f'assert _w.is_on_duty() == {c}')
            else:
                out.append(f"assert _w.is_on_duty(schedule={tb}.schedules['{n}']) == {c}")
    if not out:
        raise Unsupported('table')
    return out


# slips of the documentation in names: (file, part of the statement) -> corrected text
SLIPS = {
    ('doc/source/doing_calculations.rst', 'ws_ref_ref='): ('ws_ref_ref=', 'workshift_ref='),
    ('doc/source/doing_calculations.rst', '.what_portion_of(week1)'): ('.what_portion_of', 'X_in_staff.what_portion_of'),
    ('doc/source/doing_calculations.rst', 'decade.what_portion_of(week1)'): ('decade', 'Y_in_staff'),
}


def convert(item, roots):
    """statements (source) which perform the item and check its result"""
    body, want = item.body, [w for w in item.want]
    if body is None:
        raise Unsupported('syntax')
    src = item.src
    if not body:
        return []
    st = body[-1]
    if len(body) == 1 and isinstance(st, (ast.Import, ast.ImportFrom)):
        return []
    flat = ' '.join(w.strip() for w in want)
    err = re.search(r'\b(\w*(?:Error|Exception))\b', flat)
    if err and (len(want) > 1) and ('Traceback' in flat):
        return [f'with pytest.raises({err.group(1)}):'] + ['    ' + x for x in src.split('\n')]
    if isinstance(st, ast.For) and want:
        # for ws in X: print(...)
        if len(body) != 1 or len(st.body) != 1 or not isinstance(st.target, ast.Name):
            raise Unsupported('loop')
        attrs = re.findall(rf'\b{st.target.id}\.(\w+)', src)
        if attrs != ['start_time', 'label']:
            raise Unsupported('loop')
        out = [f'_l = list({ast.unparse(st.iter)})', f'assert len(_l) == {len(want)}']
        for i, w in enumerate(want):
            m = re.match(rf'\s*({TIME})\s+(.*)$', w)
            if not m:
                raise Unsupported('loop')
            out += [f'assert _l[{i}].start_time == {stamp(m.group(1))}', f'assert _l[{i}].label == {label(m.group(2))}']
        return out
    if not isinstance(st, ast.Expr):
        return [src]
    if not want:
        return [src]
    e = st.value
    if isinstance(e, ast.Call) and isinstance(e.func, ast.Name) and e.func.id == 'print' and len(e.args) == 1:
        x = ast.unparse(e.args[0])
        k = 0
        out = []
        m = IVL.match(want[0].strip())
        if m:
            out, k = ivl_checks(m, x), 1
        elif WS.match(want[0].strip()):
            out, k = ws_checks(WS.match(want[0].strip()), x), 1
        elif want[0].strip().startswith('Timeboard of'):
            k = 1
        rows = want[k:]
        if rows or not out:
            out += table_checks(rows, x if x in roots else roots[-1] if roots else 'clnd')
        return out
    x = src.split('#')[0].strip() if '\n' not in src else src
    if len(want) == 1 or flat[0] in '[{':
        if flat == 'NaT':
            return [f'assert pd.isnull({x})']
        if flat in ('True', 'False'):
            return [f'assert ({x}) == {flat}']
        if flat == '[]':
            return [f'assert len(list({x})) == 0' if not x.startswith('list(') else f'assert len({x}) == 0']
        if re.fullmatch(r'-?\d+', flat):
            return [f'assert ({x}) == {flat}']
        if re.fullmatch(r'-?\d+\.\d+', flat):
            q = Fraction(flat).limit_denominator(2000)
            if abs(q - Fraction(flat)) > Fraction(1, 10 ** 9):
                raise Unsupported('number')
            return [f'assert ({x}) == {q.numerator} / {q.denominator}' if q.denominator != 1 else f'assert ({x}) == {q.numerator}']
        m = WS.match(flat)
        if m:
            return [f'_r = {x}'] + ws_checks(m, '_r')
        m = IVL.match(flat)
        if m:
            return [f'_r = {x}'] + ivl_checks(m, '_r')
        m = VOID.match(flat)
        if m:
            return [f'_r = {x}', f'assert len(_r) == 0', f'assert _r._loc == ({m.group(1)}, {m.group(2)})']
        m = re.fullmatch(r"Timestamp\('([^']*)'\)", flat)
        if m:
            return [f"assert ({x}) == Timestamp('{m.group(1)}')"]
        if flat.startswith('{Timestamp'):
            return [f'assert ({x}) == {flat}']
        if flat.startswith('[Workshift'):
            ws = re.split(r',\s+(?=Workshift)', flat.strip('[]'))
            out = [f'_l = {x}', f'assert len(_l) == {len(ws)}']
            for i, w in enumerate(ws):
                m = WS.match(w)
                if not m:
                    raise Unsupported('list')
                out += [f'_w = _l[{i}]'] + ws_checks(m, '_w')
            return out
    raise Unsupported(f'result {flat[:60]}')


def statements(src, line):
    body = ast.parse(src).body
    for st in body:
        for n in ast.walk(st):
            if hasattr(n, 'lineno'):
                n.lineno = line
    return body


def groups(items):
    gs = []
    for it in items:
        if is_root(it) or not gs:
            gs.append([])
        gs[-1].append(it)
    return gs


def transcribe(path, rel):
    items = sessions(open(path).read(), rel)
    done, skipped, n = [], [], 0
    pos = {id(it): k for k, it in enumerate(items)}
    for g in groups(items):
        # definitions of earlier groups which are needed
        need, todo, defined = [], list(g), set()
        seen = set()

        def pull(it):
            for nm in sorted(it.uses()):
                for j in range(pos[id(it)] - 1, -1, -1):
                    d = items[j]
                    if nm in d.defines():
                        if d not in g and id(d) not in seen:
                            seen.add(id(d))
                            pull(d)
                            need.append(d)
                        break
        for it in g:
            pull(it)
        # a remembering pattern has been advanced by the timeboards made since
        for d in [d for d in need if 'RememberingPattern(' in d.src]:
            names = d.defines()
            for it in items[pos[id(d)] + 1:pos[id(g[0])]]:
                if it.uses() & names and it.defines():
                    names |= it.defines()
                    if id(it) not in seen:
                        seen.add(id(it))
                        pull(it)
                        need.append(it)
        need.sort(key=lambda d: d.line)
        interp = Interp(ast.parse(''))
        env = {'self': None}
        roots = [r for d in need if is_root(d) for r in d.defines()]
        used = []
        for it in need + g:
            saved = (list(interp.lines), dict(env), interp.heap, interp.nrp, interp.n, interp.units, list(interp.omitted))
            try:
                if (rel, it.line) in DISAGREE and it in g:
                    raise Unsupported(DISAGREE[rel, it.line])
                src = convert(it, roots) if it in g else [it.src]
                body = [s for x in ['\n'.join(src)] for s in statements(x, it.line)] if src else []
                k = len(interp.omitted)
                interp.block(body, env)
                if len(interp.omitted) > k:
                    raise Unsupported('arguments')
                if it in g and has_check(interp.lines[len(saved[0]):]):
                    used.append(it.line)
                    n += 1
                roots += [r for r in it.defines() if is_root(it)]
            except (Unsupported, PyRaise, KeyError, AttributeError) as e:
                interp.lines, env, interp.heap, interp.nrp, interp.n, interp.units, interp.omitted = saved
                for r in it.defines():
                    env.pop(r, None)
                if it in g:
                    skipped.append((it.line, it.src.split('\n')[0][:60], str(e) or type(e).__name__))
        if has_check(interp.lines):
            done.append((g[0].line, used, interp.lines, interp.units * len(interp.lines) > 5 * LARGE))
    return done, skipped, n


def main():
    root, out = sys.argv[1:3]
    total, left = 0, []
    for rel in FILES:
        done, skipped, n = transcribe(os.path.join(root, rel), rel)
        left += [(rel, *s) for s in skipped]
        total += n
        print(f'{rel}: {n} results checked, {len(skipped)} statements left out')
        if not done:
            continue
        text = ['import Verif.Conformance.Support', '/-!', f'# Examples of `{rel}`', '',
                'Generated by `tools/doc_examples.py`.  One example per session of the documentation: the printed results are those',
                'of the model.  These are checks of the model on single inputs, not proofs of properties.', '-/',
                'set_option linter.unusedVariables false', 'set_option maxRecDepth 8192', 'namespace TB.Conf', '']
        for line, used, lines, large in done:
            c = f'/-- {rel} {line}: results at line{"s" if len(used) > 1 else ""} {", ".join(map(str, used))}. -/'
            text.append(c.replace('/--', '/-') if large else c)
            body = render(lines + ['pure ()'], 4)
            if large:
                text.append('#guard passes (do')
                body[-1] += ')'
            else:
                text.append('example : passes (do')
                body[-1] += ') = true := by decide +kernel'
            text += body
            text.append('')
        text.append('end TB.Conf')
        with open(os.path.join(out, MODULE[rel] + '.lean'), 'w') as f:
            f.write('\n'.join(text) + '\n')
    print(f'{total} results checked, {len(left)} statements left out')
    for s in left:
        print('  ', *s)


if __name__ == '__main__':
    main()
