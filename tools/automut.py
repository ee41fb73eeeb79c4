"""Generate single edits of the model definitions mechanically and record which theorems stop building.

usage: automut.py OUT.jsonl MAXPERDEF file.lean ...      (files relative to lean/Verif)
       automut.py OUT.jsonl again OLD.jsonl file.lean ...  (only the edits that survived in OLD.jsonl)
With LOGGED=LOG.jsonl in the environment definitions that occur in this log are left out.
Works in a scratch copy. An edit that does not type check in the model itself is dropped.
"""
import json, re, subprocess, sys, os, shutil, random, signal, time

ROOT = '/verif'
MUT = os.environ.get('AUTOMUT', '/tmp/automut')
random.seed(7)

OPS = [
    (r'(?<![\w.#"])(\d+)(?![\w."])', lambda m: str(int(m.group(1)) + 1), 'number %s becomes %s'),
    (r'p!"((?:[^"\\]|\\.)+)"', lambda m: 'p!"%s"' % (m.group(1)[:-1] if len(m.group(1)) > 1 and m.group(1)[-2] != '\\' else m.group(1) + 'q'), 'text %s becomes %s'),
    (r' < ', lambda m: ' ≤ ', '%s becomes %s'),
    (r' ≤ ', lambda m: ' < ', '%s becomes %s'),
    (r' > ', lambda m: ' ≥ ', '%s becomes %s'),
    (r' ≥ ', lambda m: ' > ', '%s becomes %s'),
    (r' ∧ ', lambda m: ' ∨ ', '%s becomes %s'),
    (r' ∨ ', lambda m: ' ∧ ', '%s becomes %s'),
    (r' && ', lambda m: ' || ', '%s becomes %s'),
    (r' \|\| ', lambda m: ' && ', '%s becomes %s'),
    (r' == ', lambda m: ' != ', '%s becomes %s'),
    (r' ≠ ', lambda m: ' = ', '%s becomes %s'),
    (r'(?<=if )(.*?) = (?=.* then)', lambda m: m.group(1) + ' ≠ ', '%s becomes %s'),
    (r' \+ ', lambda m: ' - ', '%s becomes %s'),
    (r' - ', lambda m: ' + ', '%s becomes %s'),
    (r' \* ', lambda m: ' / ', '%s becomes %s'),
    (r' / ', lambda m: ' * ', '%s becomes %s'),
    (r'\.(ValueError|IndexError|KeyError|TypeError|AttributeError|FileNotFoundError|OSError|UnboundLocalError|ZeroDivisionError|NotImplementedError|LinAlgError)\b', lambda m: '.StopIteration', '%s becomes %s'),
    (r'\.take ', lambda m: '.drop ', '%s becomes %s'),
    (r'\.drop ', lambda m: '.take ', '%s becomes %s'),
    (r'\.headD ', lambda m: '.getLastD ', '%s becomes %s'),
    (r'\.getLastD ', lambda m: '.headD ', '%s becomes %s'),
    (r'\bstartsWith ', lambda m: 'endsWith ', '%s becomes %s'),
    (r'\.reverse\b', lambda m: '', '%s becomes %s'),
    (r'\.dedup\b', lambda m: '', '%s becomes %s'),
    (r'\bstrip ', lambda m: 'lstrip ', '%s becomes %s'),
    (r'\blower ', lambda m: 'upper ', '%s becomes %s'),
    (r'\btrue\b', lambda m: 'false', '%s becomes %s'),
    (r'\bfalse\b', lambda m: 'true', '%s becomes %s'),
    (r'\.1\b', lambda m: '.2', '%s becomes %s'),
    (r'\.2\b', lambda m: '.1', '%s becomes %s'),
    (r'\.x\b', lambda m: '.y', '%s becomes %s'),
    (r'\.y\b', lambda m: '.z', '%s becomes %s'),
    (r'\.z\b', lambda m: '.x', '%s becomes %s'),
    (r'\.all ', lambda m: '.any ', '%s becomes %s'),
    (r'\.any ', lambda m: '.all ', '%s becomes %s'),
    (r'\.isSome', lambda m: '.isNone', '%s becomes %s'),
    (r'\.isNone', lambda m: '.isSome', '%s becomes %s'),
    (r'¬ ', lambda m: '', '%s dropped%s'),
    (r'(?<=[ (])!(?=[a-zA-Z(])', lambda m: '', '%s dropped%s'),
    (r'(?<=if )(.*?) then (.*?) else (.*)$', lambda m: '%s then %s else %s' % (m.group(1), m.group(3), m.group(2)), '%s becomes %s'),
    (r'\{ (\w+) with [^{}]*\}', lambda m: m.group(1), 'update %s becomes %s'),
    (r' \+\+ \[[^\[\]]*\]', lambda m: '', '%s dropped%s'),
    (r'\.tail\b', lambda m: '', '%s dropped%s'),
    (r'\.dropLast\b', lambda m: '', '%s dropped%s'),
    (r'\bsome (\w+)(?= *$)', lambda m: 'none', '%s becomes %s'),
]


def decl_at(path, line):
    lines = open(path).read().split('\n')
    for i in range(min(line, len(lines)) - 1, -1, -1):
        m = re.match(r'^(?:@\[.*\] )?(?:private |protected |noncomputable )*(theorem|lemma|def|example|instance|abbrev|structure|inductive)\s*([^\s:({\[]*)', lines[i])
        if m:
            if m.group(1) == 'example':
                return 'example@%s:%d' % (os.path.basename(path), i + 1)
            return m.group(2)
    return None


def defs(src):
    """(name, start, end) of each definition body, without comments."""
    out = []
    for m in re.finditer(r'^(?:@\[.*\] )?(?:private |noncomputable )*def\s+([^\s:({\[]+)', src, re.M):
        e = re.search(r'\n\n|\n/--|\nend |\nsection|\nstructure', src[m.end():])
        end = m.end() + (e.start() if e else len(src) - m.end())
        out.append((m.group(1), m.end(), end))
    return out


def edits(src, maxper, wanted=None):
    for name, a, b in defs(src):
        cand = []
        for pat, f, desc in OPS:
            for m in re.finditer(pat, src[a:b], re.M):
                pre = src[a:a + m.start()]
                if pre.rsplit('\n', 1)[-1].lstrip().startswith('--'):
                    continue
                if re.search(r':\s*[^\n]*$', pre) and False:
                    continue
                new = f(m)
                if new == m.group(0):
                    continue
                line = src[:a + m.start()].count('\n') + 1
                cand.append((a + m.start(), a + m.end(), new, desc % (m.group(0).strip(), new.strip()) + ' (line %d)' % line))
        if wanted is not None:
            key = lambda c: (name, re.sub(r' \(line \d+\)$', '', c[3]), src[src.rfind('\n', 0, c[0]) + 1:src.find('\n', c[0])].strip())
            yield from ((name,) + c for c in cand if key(c) in wanted)
            continue
        random.shuffle(cand)
        for c in cand[:maxper]:
            yield (name,) + c


def build_until_error():
    """Build; a few seconds after the first error the build is stopped. An error inside an `example` does not count."""
    log = MUT + '/../' + os.path.basename(MUT) + '.build'
    with open(log, 'w') as g:
        p = subprocess.Popen(['lake', 'build'], cwd=MUT, stdout=g, stderr=subprocess.STDOUT, start_new_session=True)
        while p.poll() is None:
            time.sleep(0.5)
            txt = open(log).read()
            names = [decl_at(MUT + '/' + f, int(l)) for f, l in re.findall(r'error: (Verif/\S+?\.lean):(\d+):', txt)]
            if any(n and not n.startswith('example@') for n in names):
                time.sleep(2)
                os.killpg(p.pid, signal.SIGTERM)
                p.wait()
    return open(log).read()


def strip_examples(src):
    """The file without its `example` blocks (and their comments): a failing example would stop the build of the files that import it."""
    out, skip = [], False
    for line in src.split('\n'):
        if skip and line and not line[0].isspace():
            skip = False
        if line.startswith('example'):
            skip = True
            while out and re.match(r'open .* in$|set_option .* in$', out[-1]):
                out.pop()
            if out and out[-1].rstrip().endswith('-/') and any(l.startswith('/--') for l in out[-12:]):
                while not out[-1].startswith('/-'):
                    out.pop()
                if out[-1].startswith('/--'):
                    out.pop()
        if not skip:
            out.append(line)
    return '\n'.join(out)


def main():
    out, wanted = sys.argv[1], None
    if sys.argv[2] == 'again':
        maxper, files = 0, sys.argv[4:]
        wanted = {(r['definition'], re.sub(r' \(line \d+\)$', '', r['edit']), r['line']) for r in map(json.loads, open(sys.argv[3])) if r.get('survived')}
    else:
        maxper, files = int(sys.argv[2]), sys.argv[3:]
    if os.path.isdir(MUT):
        shutil.rmtree(MUT + '/Verif')
        shutil.copytree(ROOT + '/lean/Verif', MUT + '/Verif')
        shutil.copy(ROOT + '/lean/Verif.lean', MUT + '/Verif.lean')
    else:
        shutil.copytree(ROOT + '/lean', MUT, symlinks=True)
    for d in ('Props', 'Proofs', 'Model', 'Tests'):
        for f in os.listdir(MUT + '/Verif/' + d):
            p = MUT + '/Verif/' + d + '/' + f
            t = open(p).read()
            if '\nexample' in t:
                open(p, 'w').write(strip_examples(t))
    if subprocess.run(['lake', 'build'], cwd=MUT, capture_output=True).returncode != 0:
        sys.exit('the unmodified copy does not build')
    seen, logged = set(), set()
    if os.environ.get('LOGGED'):
        logged = {r['definition'] for r in map(json.loads, open(os.environ['LOGGED']))}
    if os.path.exists(out):
        seen = {(r['file'][len('lean/Verif/'):], r['edit']) for r in map(json.loads, open(out))}
    for file in files:
        path = MUT + '/Verif/' + file
        src = open(path).read()
        mod = 'Verif.' + file[:-5].replace('/', '.')
        for name, a, b, new, desc in edits(src, maxper, wanted):
            if (file, desc) in seen or name in logged:
                continue
            open(path, 'w').write(src[:a] + new + src[b:])
            if subprocess.run(['lake', 'build', mod], cwd=MUT, capture_output=True).returncode != 0:
                continue
            txt = build_until_error()
            failed = []
            for f, l in re.findall(r'error: (Verif/\S+?\.lean):(\d+):', txt):
                n = decl_at(MUT + '/' + f, int(l))
                if n and n not in failed:
                    failed.append(n)
            real = [n for n in failed if not n.startswith('example@')]
            if not failed and 'error' in txt:
                continue
            rec = {"definition": name, "file": 'lean/Verif/' + file, "edit": desc, "claim": None, "theorems_failed": failed,
                   "modules_failed": sorted(set(re.findall(r'^✖ .*Building (Verif\S*)', txt, re.M))), "tightened": [],
                   "line": src[src.rfind('\n', 0, a) + 1:src.find('\n', a)].strip()}
            if not real:
                rec["survived"] = True
            with open(out, 'a') as g:
                g.write(json.dumps(rec, ensure_ascii=False) + '\n')
        open(path, 'w').write(src)
    subprocess.run(['lake', 'build'], cwd=MUT, capture_output=True)


main()
