#!/usr/bin/env python3
"""Seeded-bug runner.  usage: mutate.py mutants.py [jobs]
For every mutant of the list M in the given file: copy the model to a scratch directory, apply the edit, re-elaborate
the modules that depend on the edited file (mutdriver: errors do not stop it, a failed proof becomes a hole), and list
the theorems of Props/ that no longer have a proof (in the modules of the properties the mutant is aimed at).  Appends one line per mutant to seeded/LOG.jsonl."""
import sys, os, re, json, subprocess, shutil, pathlib, concurrent.futures as cf
V = pathlib.Path('/verif'); L = V / 'lean'; W = pathlib.Path('/tmp/mut')
def mods():
    r = {}
    for f in sorted((S / 'Verif').rglob('*.lean')):
        m = '.'.join(f.relative_to(S).with_suffix('').parts)
        r[m] = [x for x in re.findall(r'^import (\S+)', f.read_text(), re.M) if x.startswith('Verif.')]
    return r
def dependents(deps, m):
    order, seen = [], set()
    def visit(x):
        if x in seen: return
        seen.add(x)
        for d in deps[x]: visit(d)
        order.append(x)
    for x in deps: visit(x)
    dirty = {m}
    for x in order:
        if any(d in dirty for d in deps[x]): dirty.add(x)
    return [x for x in order if x in dirty]
# work on a snapshot, so that /verif/lean can be rebuilt meanwhile
S = W / f'snap{os.getpid()}'; shutil.rmtree(S, ignore_errors=True)
shutil.copytree(L / 'Verif', S / 'Verif'); shutil.copytree(L / '.lake/build/lib/lean/Verif', S / 'olean/Verif', ignore=lambda d, fs: [f for f in fs if f.endswith(('.ilean', '.trace', '.hash'))])
BASE = subprocess.run('lake env printenv LEAN_PATH', shell=True, cwd=L, capture_output=True, text=True).stdout.strip()
ONLY = [x for x in os.environ.get('MUT_ONLY', '').split(',') if x]
def limit():
    import resource; resource.setrlimit(resource.RLIMIT_AS, (40 << 30, 40 << 30))
def run(mu):
    d = W / ('w_' + mu['id']); shutil.rmtree(d, ignore_errors=True); d.mkdir(parents=True)
    shutil.copytree(S / 'Verif', d / 'Verif')
    (d / 'out').mkdir()
    src = S / 'olean/Verif'
    for f in src.rglob('*.olean'):
        t = d / 'out/Verif' / f.relative_to(src); t.parent.mkdir(parents=True, exist_ok=True); os.symlink(f, t)
    f = d / 'Verif' / mu['file']; s = f.read_text()
    if s.count(mu['old']) != 1:
        shutil.rmtree(d, ignore_errors=True); return mu, None, [f"old text occurs {s.count(mu['old'])} times"], []
    f.write_text(s.replace(mu['old'], mu['new']))
    deps = mods(); m = 'Verif.' + mu['file'][:-5].replace('/', '.')
    env = dict(os.environ, LEAN_PATH=str(d / 'out') + ':' + ':'.join(p for p in BASE.split(':') if '/verif/' not in p))
    holes, errs = [], []
    # only the modules that the theorems of the claimed properties need
    need, todo = set(), [x for x in deps if x.startswith('Verif.Props.') and
        any(re.search(r'^theorem ' + c + '_', (S / (x.replace('.', '/') + '.lean')).read_text(), re.M) for c in mu['claims'])]
    while todo:
        x = todo.pop()
        if x not in need: need.add(x); todo += deps[x]
    for x in dependents(deps, m):
        if x not in need: continue
        # MUT_ONLY: re-elaborate only the edited module and the listed ones; the others keep their compiled form, so a
        # theorem of theirs that the edit breaks is not reported (fewer theorems are listed, never more)
        if ONLY and x != m and x not in ONLY: continue
        p = x.replace('.', '/')
        o = d / 'out' / (p + '.olean'); o.unlink(missing_ok=True)
        for attempt in (0, 1):
            if attempt:   # a module that could not be elaborated to its end: again without its examples
                f = d / (p + '.lean')
                f.write_text(re.sub(r'^example(?:.*\n)(?:(?!(?:theorem|/--|/-!|end|namespace|def|example|section|open|variable|instance|abbrev|structure|inductive)\b).*\n)*', '', f.read_text(), flags=re.M))
            try:
                r = subprocess.run(['lean', '--run', str(W / 'Driver.lean'), x, p + '.lean', str(o)], cwd=d, env=env,
                                   capture_output=True, text=True, timeout=900 if attempt else 300, preexec_fn=limit)
            except subprocess.TimeoutExpired:
                errs.append(x + ': timeout'); crashed = True; continue
            crashed = r.returncode not in (0, 4)
            if crashed: errs.append(x + ': ' + r.stderr[-300:]); continue
            break
        if crashed: holes.append('(not built) ' + x); continue
        for l in r.stdout.splitlines():
            if l.startswith('HOLE '): holes.append(l[5:])
            if l.startswith('ERR '): errs.append(l[4:])
        if x == m and r.returncode == 4 and not mu.get('model_thms'): break
    shutil.rmtree(d, ignore_errors=True)
    return mu, holes, errs, []
def main():
    ns = {}; exec(open(sys.argv[1]).read(), ns)
    log = V / 'seeded/LOG.jsonl'
    done = {json.loads(l)['id'] for l in log.read_text().splitlines()} if log.exists() else set()
    todo = [m for m in ns['M'] if m['id'] not in done]
    with cf.ThreadPoolExecutor(int(sys.argv[2]) if len(sys.argv) > 2 else 3) as ex:
        for mu, holes, errs, _ in ex.map(run, todo):
            if holes is None: print(mu['id'], 'BAD', errs); continue
            props = [h for h in holes if re.search(r'(^|\.)C\d+_', h)]
            ex_errs = [e for e in errs if '/Props/' in e]
            modelbad = [e for e in errs if '/Model/' in e]
            hit = sorted({re.search(r'(C\d+)_', h).group(1) for h in props})
            want = mu['claims']; missed = [c for c in want if c not in hit]
            rec = {'id': mu['id'], 'definition': mu['def'], 'edit': mu['edit'], 'file': 'lean/Verif/' + mu['file'],
                   'old': mu['old'], 'new': mu['new'], 'claim_broken': mu['claim'], 'properties': want,
                   'theorems_failed': props, 'theorems_tightened': mu.get('tightened', [])}
            if mu.get('note'): rec['note'] = mu['note']
            print(mu['id'], 'hit', hit, 'MISSED' if missed else 'ok', missed, 'MODELBAD' if modelbad else '', modelbad[:2], flush=True)
            if missed or modelbad:
                json.dump({'rec': rec, 'errs': errs[:40], 'holes': holes[:40]}, open(W / (mu['id'] + '.json'), 'w'), indent=1)
                continue
            with log.open('a') as f: f.write(json.dumps(rec, ensure_ascii=False) + '\n')
main()
