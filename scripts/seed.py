#!/usr/bin/env python3
"""seed.py FILE.json: test the theorems against wrong programs.

FILE.json is a list of {"file","old","new","def","edit","claim","props"}.  Each edit is made in a scratch
copy of /verif/lean (outside /verif), the copy is rebuilt, every proof that fails is replaced by `sorry`
(failing examples are dropped) until the copy builds, and then the property theorems that failed or that
depend on a failed lemma are listed.  With "local": true only the modules with the theorems of "props" are
rebuilt and looked at (for definitions nearly everything depends on).  One line per attempt is appended to /verif/seeded/LOG.jsonl.
"""
import json, re, os, sys, subprocess, shutil, glob
BASE = '/tmp/seed_dry' if '--dry' in sys.argv else '/tmp/seed'
SRC = BASE + '/src/lean'; DST = BASE + '/lean'   # SRC: snapshot of the last commit

def sh(cmd, timeout=3000):
    r = subprocess.run(cmd, shell=True, capture_output=True, text=True, timeout=timeout)
    return r.stdout + r.stderr

def sync():
    os.makedirs(DST, exist_ok=True)
    sh(f'rsync -a --delete --exclude .lake {SRC}/ {DST}/ || (rm -rf {DST}/Verif* && cp -r {SRC}/Verif {SRC}/Verif.lean {SRC}/lakefile.toml {SRC}/lake-manifest.json {DST}/)')
    if not os.path.exists(DST + '/.lake'): sh(f'cp -r /verif/lean/.lake {DST}/')
    for f in ('lean-toolchain',):
        if os.path.exists(f'{SRC}/{f}'): shutil.copy(f'{SRC}/{f}', DST)

START = re.compile(r'^(private |protected |noncomputable |@\[[^\]]*\] *)*(theorem|lemma|example|instance|def|abbrev|inductive|structure)\b')
def patch(path, lines_err):
    """Replace the proofs of the declarations around the error lines; returns names."""
    L = open(path).read().split('\n')
    starts = sorted({max([i for i in range(min(e, len(L))) if START.match(L[i])], default=-1) for e in lines_err}, reverse=True)
    names = []
    for s in starts:
        if s < 0: return None
        e = s + 1
        while e < len(L) and (L[e] == '' or L[e][0] in ' \t)') : e += 1
        while e > s + 1 and L[e-1] == '': e -= 1
        kind = START.match(L[s]).group(2)
        if kind == 'example':
            names.append('example'); L[s:e] = []; continue
        if kind not in ('theorem', 'lemma'):
            print('cannot patch', path, L[s]); return None
        text = '\n'.join(L[s:e])
        names.append(re.match(r'.*?(?:theorem|lemma) (\S+)', text).group(1))
        d = 0; cut = None
        m = re.search(r'\n  \| ', text)
        i = 0
        while i < len(text):
            c = text[i]
            if c in '([{⟨': d += 1
            elif c in ')]}⟩': d -= 1
            elif d == 0 and text.startswith(':=', i):
                before = text[:i].split('\n')[-1]
                if not re.search(r'\b(let|have)\b', before): cut = i; break
            i += 1
        if m and (cut is None or m.start() < cut): cut = m.start()
        if cut is None: print('no cut', text[:200]); return None
        new = text[:cut] + ' := by sorry'
        if new == text.rstrip(): print('already sorry', names[-1]); return None
        L[s:e] = new.split('\n')
    open(path, 'w').write('\n'.join(L))
    return names

def scope(mu):
    """The modules with the theorems of the properties of a local attempt, or none for everything."""
    if not mu.get('local'): return []
    r = re.compile(r'^theorem (' + '|'.join(mu['props']) + r')(_|\b)', re.M)
    return [f[len(SRC)+1:-5].replace('/', '.') for f in sorted(glob.glob(SRC + '/Verif/Props/*.lean')) if r.search(open(f).read())]

def build(mods):
    out = sh(f'cd {DST} && lake build {" ".join(mods)} 2>&1')
    errs = {}
    for m in re.finditer(r'^error: (?:\./)*(Verif\S*\.lean):(\d+):\d+', out, re.M):
        errs.setdefault(m.group(1), set()).add(int(m.group(2)))
    return errs, out

def run(mu):
    sync()
    p = f"{DST}/{mu['file']}"
    s = open(p).read()
    if s.count(mu['old']) < 1: return {'error': 'old text not found'}
    s = s.replace(mu['old'], mu['new'], 1) if not mu.get('all') else s.replace(mu['old'], mu['new'])
    open(p, 'w').write(s)
    failed = []
    mods = scope(mu)
    for it in range(40):
        errs, out = build(mods)
        if not errs:
            if 'build failed' in out or 'Lean exited' in out: return {'error': out[-600:]}
            break
        for f, ls in errs.items():
            if f == mu['file'] and not f.startswith('Verif/Props'):
                return {'error': 'model does not compile: ' + '\n'.join(x for x in out.split('\n') if 'error' in x)[:600]}
            n = patch(f'{DST}/{f}', ls)
            if n is None: return {'error': 'unpatchable ' + f + out[-300:]}
            failed += n
    else: return {'error': 'too many rounds'}
    man = json.load(open(BASE + '/src/MANIFEST.json'))
    th = [t for c in man['claims'] if not mods or c['property'] in mu['props'] for t in c['theorems']]
    t = DST + '/AxCheck.lean'
    open(t, 'w').write(''.join(f'import {x}\n' for x in (mods or ['Verif']) + ['Lean']) + 'open Lean in\nrun_cmd do\n  for n in [' + ', '.join('``' + x for x in th) +
      '] do\n    let a ← Lean.collectAxioms n\n    if a.contains ``sorryAx then logInfo m!"BROKEN {n}"\n')
    out = sh(f'cd {DST} && lake env lean AxCheck.lean')
    os.remove(t)
    if ': error' in out: return {'error': out[:500]}
    broken = re.findall(r'BROKEN (\S+)', out)
    return {'broken': broken, 'direct': sorted(set(failed))}

if __name__ == '__main__':
    log = '/verif/seeded/LOG.jsonl'
    sh(f'rm -rf {BASE}/src && mkdir -p {BASE}/src && cd /verif && git archive HEAD lean MANIFEST.json | tar x -C {BASE}/src')
    for mu in json.load(open(sys.argv[1])):
        if '--dry' in sys.argv:   # only look whether the edit applies
            n = open(f"{SRC}/{mu['file']}").read().count(mu['old'])
            if n != 1: print(n, 'places', mu['def'], '|', mu['edit'])
            continue
        try: r = run(mu)
        except Exception as ex: r = {'error': repr(ex)}
        if 'error' in r:
            print('ERR', mu['def'], '|', mu['edit'], '|', r['error'], flush=True); continue
        b = [x.replace('Minilib.', '') for x in r['broken']]
        missing = [q for q in mu['props'] if not any(x.startswith(q) for x in b)]
        print('SURVIVED' if missing else 'ok', mu['def'], '|', mu['edit'], '|', b, '| not caught by:', missing, flush=True)
        rec = {'definition': mu['def'], 'file': mu['file'], 'edit': mu['edit'], 'old': mu['old'], 'new': mu['new'],
               'breaks': mu['claim'], 'properties': mu['props'], 'theorems_failed': b,
               'proofs_failed_directly': r['direct'], **({'scope': scope(mu)} if mu.get('local') else {}), 'not_caught': missing, 'theorems_tightened': mu.get('tightened', [])}
        open(log, 'a').write(json.dumps(rec, ensure_ascii=False) + '\n')
