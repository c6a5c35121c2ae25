"""Writes lean/Verif/Lemmas/GameData/<Job>.lean: for each generated class description, the lemmas saying that
a version between two listed ones gets the data of the earlier one.  The lemmas are checked by Lean."""
import re,sys
JOBS="Drk Gnb Pld War Ast Sch Sge Whm Brd Dnc Mch Blm Pct Rdm Smn Drg Mnk Nin Rpr Sam Vpr".split()
BASE=["floor_lt","floor_ge","floor_level","getSkillData_floor","getPotency_floor","getPotencyNoCombo_floor","getPotencyNoPositional_floor"]
RK={"p655":2,"p70":4,"p701":6,"p705":8,"p71":10}
def gen(job):
    s=open(f'/verif/lean/Verif/Model/GameData/{job}.lean').read()
    chunks=re.split(r'(?m)^(?=def |/--)',s)
    defs=[]
    for c in chunks:
        m=re.match(r'def (\w+)((?: \([^)]*\))*) : (Py PyVal|JobClass)',c)
        if m: defs.append((m.group(1),m.group(2),c[m.end():]))
    names=[d[0] for d in defs]
    hyps={}; out=[]; uses={}
    for (n,args,body) in defs:
        lst=re.findall(r'\((\w+) : (\w+)\)',args)
        if not lst or lst[0][1]!='Env':
            hyps[n]=None; continue
        own=set()
        lem=[]
        for op,p in re.findall(r'env\.(le|gt|eq|ne) \.(p\d+)',body):
            own.add(RK[p]); lem.append(f"floor_{op} (e := e) (p := .{p}) h{RK[p]}")
        called=[]
        for c in re.findall(r'\b(\w+) env\b',body):
            if c in names and hyps.get(c) is not None and c not in called: called.append(c)
        for c in called: own|=hyps[c]
        hyps[n]=own; uses[n]=(lst,lem,called,body)
    for (n,args,body) in defs:
        if hyps[n] is None: continue
        lst,lem,called,body=uses[n]
        if lst[0][0]=='_env':   # does not depend on the version at all
            ex=''.join(f' ({a} : {t})' for a,t in lst[1:])
            app=' '.join(a for a,_ in lst[1:])
            out.append(f"theorem {n}_floor (e : Env){ex} : {n} e.floor {app} = {n} e {app} := rfl".replace("  "," "))
            continue
        ex=''.join(f' ({a} : {t})' for a,t in lst[1:])
        hs=''.join(f' (h{k} : e.pos ≠ {k})' for k in sorted(hyps[n]))
        app=' '.join(a for a,_ in lst[1:])
        def use(c):
            l=c+"_floor"
            hh=sorted(hyps[c])
            cl=uses[c][0]
            if hh:
                l=f"{l} e {' '.join('_' for _ in cl[1:])} {' '.join('h%d'%k for k in hh)}".replace("  "," ")
            return l
        rules=[]
        if 'env.lt' in body: rules.append("floor_lt")
        if 'env.ge' in body: rules.append("floor_ge")
        lvl='env.level' in body
        for g in ["getSkillData","getPotency","getPotencyNoCombo","getPotencyNoPositional"]:
            if re.search(r'\b'+g+r'\b',body): rules.append(g+"_floor")
        rules+=list(dict.fromkeys(lem))+[use(c) for c in called]
        st=f"theorem {n}_floor (e : Env){ex}{hs} :\n    {n} e.floor {app} = {n} e {app} := by".replace("  :"," :").replace(" =  "," = ").replace("  ="," =").replace("  :="," :=")
        tac="rfl" if not rules else None
        if tac: out.append(st+" rfl")
        else:
            r=[n]+rules
            lines=[];cur="  simp only ["
            for i,x in enumerate(r):
                item=x+(", " if i<len(r)-1 else "]")
                if len(cur)+len(item)>104: lines.append(cur.rstrip()); cur="    "
                cur+=item
            lines.append(cur)
            out.append(st+"\n"+"\n".join(lines)+(" <;> rfl" if lvl else ""))
    jh=sorted(hyps['job'])
    txt=f"""import Verif.Lemmas.GameData.Floor
import Verif.Model.GameData.{job}

/-!
# The data of {job.upper()} for a version between two listed ones

Generated by `tools/floor.py`: method by method, the data for a version is that for the latest listed
version that is not above it{'' if not jh else ', under the conditions stated where the code compares with `<=`, `>`, `==` or `!=`'}.
-/

set_option linter.unnecessarySeqFocus false
set_option linter.unusedSimpArgs false

namespace Ama.GameData.{job}

"""+"\n\n".join(out)+f"\n\nend Ama.GameData.{job}\n"
    return txt,jh
if __name__=="__main__":
    for job in (sys.argv[1:] or JOBS):
        t,jh=gen(job)
        open(f'/verif/lean/Verif/Lemmas/GameData/{job}.lean','w').write(t)
        print(job,jh)
