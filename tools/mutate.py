#!/usr/bin/env python3
"""Seeded-bug experiments.  Usage: mutate.py mutants.json

Each mutant: {"id","file","def","old","new","edit","claim","expect":[...]} and optionally
"targets": modules to build (below Verif; default: everything), one after the other until one fails.  The model file is edited
in a scratch copy of /verif/lean, the project is rebuilt, and the declarations that no longer
check are written to seeded/LOG.jsonl.  `expect` are the property ids whose theorems must fail.
"""
import json, os, re, subprocess, sys, shutil
SRC = '/verif/lean'; DST = '/tmp/scratch/lean'; LOG = '/verif/seeded/LOG.jsonl'

def modules():
    out = {}
    for r, _, fs in os.walk(SRC + '/Verif'):
        for f in fs:
            if f.endswith('.lean'):
                p = os.path.join(r, f)
                m = os.path.relpath(p, SRC)[:-5].replace('/', '.')
                out[m] = re.findall(r'^import (Verif[\w.]*)', open(p).read(), re.M)
    return out

def dependents(mods, failed):
    res = set(failed); ch = True
    while ch:
        ch = False
        for m, imps in mods.items():
            if m not in res and any(i in res for i in imps):
                res.add(m); ch = True
    return res

def decl_at(path, line):
    ls = open(path).read().split('\n')
    for i in range(min(line, len(ls)) - 1, -1, -1):
        m = re.match(r'\s*(?:@\[[^\]]*\]\s*)*(?:private |noncomputable |protected )*(theorem|lemma|def|example|instance|abbrev)\s*([^\s:({\[]*)', ls[i])
        if m: return m.group(2) or m.group(1)
    return '?'

def sync():
    os.makedirs(DST, exist_ok=True)
    subprocess.run(['rsync', '-a', '--delete', SRC + '/', DST + '/'], check=True) if shutil.which('rsync') else \
        subprocess.run(f'rm -rf {DST} && cp -a {SRC} {DST}', shell=True, check=True)

def theorems(path):
    return re.findall(r'^theorem (C\d+\w*)', open(path).read(), re.M)

def main():
    muts = json.load(open(sys.argv[1]))
    done = {json.loads(l).get('id') for l in open(LOG)} if os.path.exists(LOG) else set()
    sync()
    mods = modules()
    for mu in muts:
        if mu['id'] in done: continue
        p = f"{DST}/{mu['file']}"
        orig = open(p).read()
        n = orig.count(mu['old'])
        if n != mu.get('count', 1):
            print(mu['id'], 'PATTERN COUNT', n, flush=True); continue
        open(p, 'w').write(orig.replace(mu['old'], mu['new']))
        try:
            out = ''
            for tgt in [['Verif.' + x] for x in mu.get('targets', [])] or [[]]:
                r = subprocess.run(['lake', 'build'] + tgt, cwd=DST, capture_output=True, text=True, timeout=1800)
                out += r.stdout + r.stderr
                if r.returncode: break
        except subprocess.TimeoutExpired:
            out = 'error: timeout'
        finally:
            open(p, 'w').write(orig)
        direct = {}
        for m in re.finditer(r'^error: (Verif/[\w/]+\.lean):(\d+):', out, re.M):
            mod = m.group(1)[:-5].replace('/', '.')
            # declaration names come from the unmutated text for other files
            f = f"{DST}/{m.group(1)}"
            direct.setdefault(mod, [])
            d = decl_at(f, int(m.group(2)))
            if d not in direct[mod]: direct[mod].append(d)
        blocked = dependents(mods, direct) - set(direct)
        th = sorted({t for mod in direct for t in direct[mod] if re.match(r'C\d+', t)})
        blk = sorted({t for mod in blocked for t in theorems(f"{SRC}/{mod.replace('.', '/')}.lean")})
        failprops = {re.match(r'C\d+', t).group(0) for t in th + blk}
        # a failing helper lemma inside a Props file: theorems of that file depend on it
        for mod in direct:
            if mod.startswith('Verif.Props'):
                failprops |= {re.match(r'C\d+', t).group(0) for t in theorems(f"{SRC}/{mod.replace('.', '/')}.lean")
                              if any(not re.match(r'C\d+', d) for d in direct[mod])}
        missing = [c for c in mu['expect'] if c not in failprops]
        rec = {'id': mu['id'], 'definition': f"{mu['file']}: {mu['def']}", 'edit': mu['edit'],
               'claim_broken': mu['claim'], 'failed': direct, 'theorems_failed': th,
               'theorems_blocked_by_failed_lemmas': blk[:60], 'tightened': [],
               'verdict': 'SURVIVED' if not direct else ('caught' if not missing else 'caught, but not by ' + ','.join(missing))}
        print(mu['id'], rec['verdict'], direct, flush=True)
        with open(LOG, 'a') as fh: fh.write(json.dumps(rec, ensure_ascii=False) + '\n')
    subprocess.run(['true'])
main()
