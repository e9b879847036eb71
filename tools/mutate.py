#!/usr/bin/env python3
"""Seeded-bug testing of the theorems.

usage: mutate.py mutations.py   -- a python file defining M = [(name, file, old, new, claim), ...]

Each mutation edits one definition of the model in a scratch copy of /verif/lean (/tmp/mut), rebuilds,
and reports which declarations fail and which manifest theorems depend on them.
Appends one JSON line per mutation to /verif/seeded/LOG.jsonl."""
import sys, os, re, json, subprocess, runpy
SRC="/verif/lean"; MUT="/tmp/mut"
def sh(c, cwd=None): return subprocess.run(c, shell=True, cwd=cwd, capture_output=True, text=True)
def decl_at(path, line):
    ls=open(path).read().split("\n")
    for i in range(min(line,len(ls))-1, -1, -1):
        m=re.match(r"(?:private |noncomputable )*(theorem|def|lemma|example|structure|instance)\b ?([^\s:({\[]*)", ls[i])
        if m: return (m.group(2) or f"example@{i+1}") if m.group(1)!="example" else f"example@{i+1}"
    return "?"
DECL=re.compile(r"(?:set_option .* in|/--|@\[|(?:private |noncomputable )*(?:theorem|def|lemma|example|structure|instance|inductive|abbrev)\b|end |namespace |open |section)")
def stub(path, line):
    ls=open(path).read().split("\n")
    i=min(line,len(ls))-1
    while i>=0 and not re.match(r"(?:private |noncomputable )*(theorem|lemma|example)\b", ls[i]):
        if re.match(r"(?:noncomputable )?(def|abbrev|structure|instance)\b", ls[i]): return False
        i-=1
    if i<0: return False
    j=i+1
    while j<len(ls) and not DECL.match(ls[j]) and not ls[j].startswith("/-!"): j+=1
    body=ls[i:j]
    for k,l in enumerate(body):
        m=re.search(r":=( by)?(\s.*)?$", l)
        if m and (l.rstrip().endswith(":=") or l.rstrip().endswith(":= by") or k==len(body)-1 or
                  all(not x.strip() for x in body[k+1:]) or re.search(r":= by\b", l) and not re.match(r"\s*(let|have)", l)):
            pos=l.rindex(":=")
            body=body[:k]+[l[:pos]+":= by so"+"rry"]
            ls[i:j]=body+[""]
            open(path,"w").write("\n".join(ls))
            return True
    return False
def main():
    sh("lake build", SRC)
    snap="/tmp/mutsrc"; sh(f"rm -rf {snap} && cp -a {SRC} {snap}")
    muts=runpy.run_path(sys.argv[1])["M"]
    for name,file,old,new,claim in muts:
        sh(f"rm -rf {MUT} && cp -a {snap} {MUT}")
        p=os.path.join(MUT,"Verif",file)
        s=open(p).read()
        assert s.count(old)>=1, (name, "pattern not found")
        open(p,"w").write(s.replace(old,new,1))
        failed=[]
        for it in range(12):
            # failing proofs are stubbed out (in the scratch copy only) so that later modules are checked too
            r=sh("lake build 2>&1", MUT)
            hits={}
            for m in re.finditer(r"error: (Verif/[\w/]+\.lean):(\d+):(\d+)", r.stdout):
                hits.setdefault(m.group(1),set()).add(int(m.group(2)))
            if not hits:
                # the prover was stopped (memory) while checking a module: that module no longer checks either
                for m in re.finditer(r"✖ \[\d+/\d+\] Building (\S+)", r.stdout):
                    failed.append("module "+m.group(1)+" (prover ran out of memory)")
                break
            progress=False
            for fn,lines in hits.items():
                q=os.path.join(MUT,fn)
                for line in sorted(lines, reverse=True):
                    d=decl_at(q,line)
                    if d not in failed: failed.append(d)
                    progress|=stub(q,line)
            if not progress: break
        else:
            print("gave up iterating")
        # manifest theorems that depend on the failing declarations
        deps=[]
        names=[f for f in failed if not f.startswith("example") and not f.startswith("module ")]
        if names:
            lst=", ".join("`Verif."+n.replace("Verif.","") for n in names)
            lean=f"""import Verif
import Lean
open Lean
def failed : List Name := [{lst}]
partial def go (env : Environment) (n : Name) : StateM NameSet Unit := do
  if (← get).contains n then return
  unless (`Verif).isPrefixOf n do return
  modify (·.insert n)
  if let some c := env.find? n then
    for x in c.type.getUsedConstants do go env x
    if let some v := c.value? (allowOpaque := true) then
      for x in v.getUsedConstants do go env x
run_cmd do
  let env ← getEnv
  for (n, _) in env.constants.map₁.toList do
    let s := n.toString
    if s.startsWith "Verif.C" && (s.toList.drop 7 |>.take 2 |>.all Char.isDigit) then
      let (_, st) := (go env n).run {{}}
      if failed.any (st.contains ·) then logInfo m!"DEP {{n}}"
"""
            open("/tmp/dep.lean","w").write(lean)
            o=sh("lake env lean /tmp/dep.lean", snap)
            deps=sorted({x[4:].replace("Verif.","") for x in re.findall(r"DEP \S+", o.stdout)})
            deps=[d for d in deps if not re.search(r"(_full\w*|match_\d+.*|proof_\d+.*)$", d)]
            if "error:" in o.stdout: print(o.stdout[:500])
        rec={"definition":name,"file":"lean/Verif/"+file,"edit":{"old":old,"new":new},"claim_broken":claim,
             "caught": bool(failed), "failing_declarations":failed,"theorems_failed":deps,"theorems_tightened":[]}
        print(json.dumps({"def":name,"caught":bool(failed),"failed":failed[:6],"theorems":deps[:12]}))
        if "--dry" not in sys.argv:
            open("/verif/seeded/LOG.jsonl","a").write(json.dumps(rec)+"\n")
main()
