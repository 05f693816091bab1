import json,sys
IL="DevIL/src-IL/src/"; ILU="DevIL/src-ILU/src/"
def add(id,title,st,q,w,anch,plan_model,plan_how):
    lines=open('/verif/properties.jsonl').read().splitlines()
    assert not any(json.loads(l)['id']==id for l in lines), id
    lines.append(json.dumps({"id":id,"title":title,"statement":st,"quantifier":q,"why_tests_cant":w,"anchors":[{"file":f,"symbols":s} for f,s in anch]}))
    open('/verif/properties.jsonl','w').write("\n".join(lines)+"\n")
    d=open('/verif/DESIGN.md').read()
    rows=d.split("\n"); last=max(i for i,l in enumerate(rows) if l.startswith("| C"))
    rows.insert(last+1,f"| {id} | {plan_model} | {plan_how} |")
    open('/verif/DESIGN.md','w').write("\n".join(rows))
