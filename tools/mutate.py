"""Apply edits to a scratch copy of the model and record which theorems stop building.

usage: mutate.py batch.json
batch.json: list of {"file", "old", "new", "edit", "claim", ["nth"]}; file is relative to lean/Verif.
Each result is printed; with --log it is also appended to seeded/LOG.jsonl.
"""
import json, re, subprocess, sys, os, shutil

ROOT = '/verif'
MUT = '/tmp/mut'


def decl_at(path, line):
    lines = open(path).read().split('\n')
    for i in range(min(line, len(lines)) - 1, -1, -1):
        m = re.match(r'^(?:@\[.*\] )?(?:private |protected |noncomputable )*(theorem|lemma|def|example|instance|abbrev|structure)\s*([^\s:({\[]*)', lines[i])
        if m:
            if m.group(1) == 'example':
                return 'example@%s:%d' % (os.path.basename(path), i + 1)
            return m.group(2)
    return None


def decl_before(path, pos):
    return decl_at(path, open(path).read()[:pos].count('\n') + 1)


def main():
    batch = json.load(open(sys.argv[1]))
    log = '--log' in sys.argv
    if not os.path.isdir(MUT):
        shutil.copytree(ROOT + '/lean', MUT, symlinks=True)
    shutil.rmtree(MUT + '/Verif')
    shutil.copytree(ROOT + '/lean/Verif', MUT + '/Verif')
    shutil.copy(ROOT + '/lean/Verif.lean', MUT + '/Verif.lean')
    base = subprocess.run(['lake', 'build'], cwd=MUT, capture_output=True)
    if base.returncode != 0:
        sys.exit('the unmodified copy does not build')
    for m in batch:
        path = MUT + '/Verif/' + m['file']
        src = open(path).read()
        cnt = src.count(m['old'])
        nth = m.get('nth', 0)
        if cnt == 0 or (cnt > 1 and 'nth' not in m):
            print('BAD PATTERN', cnt, m['file'], repr(m['old']))
            continue
        pos = -1
        for _ in range(nth + 1):
            pos = src.index(m['old'], pos + 1)
        open(path, 'w').write(src[:pos] + m['new'] + src[pos + len(m['old']):])
        d = decl_at(path, src[:pos].count('\n') + 1)
        r = subprocess.run(['lake', 'build'], cwd=MUT, capture_output=True, text=True)
        out = r.stdout + r.stderr
        failed = []
        for f, l in re.findall(r'error: (Verif/\S+?\.lean):(\d+):', out):
            n = decl_at(MUT + '/' + f, int(l))
            if n and n not in failed:
                failed.append(n)
        blocked = sorted(set(re.findall(r'^✖ .*Building (Verif\S*)', out, re.M)))
        open(path, 'w').write(src)
        rec = {"definition": d, "file": 'lean/Verif/' + m['file'], "edit": m['edit'], "claim": m['claim'],
               "theorems_failed": failed, "modules_failed": blocked, "tightened": m.get('tightened', [])}
        if r.returncode == 0:
            rec["survived"] = True
        if m.get('remark'):
            rec["remark"] = m['remark']
        print(('SURVIVED ' if r.returncode == 0 else 'caught   ') + d + ' | ' + m['edit'] + ' | ' + ', '.join(failed[:6]), flush=True)
        if log:
            open(ROOT + '/seeded/LOG.jsonl', 'a').write(json.dumps(rec, ensure_ascii=False) + '\n')
    subprocess.run(['lake', 'build'], cwd=MUT, capture_output=True)


main()
