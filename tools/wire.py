"""Add a property: props.py entry, notes, DESIGN row, modules. Usage: wire.py FILE.json"""
import json,sys
q=json.load(open(sys.argv[1]))
p='tools/props.py'; s=open(p).read()
anch='['+', '.join(f'{a.split(":")[0]} + ":{a.split(":")[1]}"' for a in q['anchors'])+']'
new=f'''p({json.dumps(q["title"],ensure_ascii=False)},
  {json.dumps(q["statement"],ensure_ascii=False)},
  {json.dumps(q["quantifier"],ensure_ascii=False)},
  {json.dumps(q["why"],ensure_ascii=False)},
  {anch})

'''
s=s.replace('if __name__ ==',new+'if __name__ ==',1); open(p,'w').write(s)
p='lean/Verif.lean'; s=open(p).read().rstrip('\n')+''.join('\nimport '+m for m in q['modules'])+'\n'; open(p,'w').write(s)
if q.get('note'):
    p='tools/notes.json'; n=json.load(open(p)); n[q['id']]=q['note']
    json.dump(n,open(p,'w'),indent=1,ensure_ascii=False,sort_keys=True)
p='DESIGN.md'; s=open(p).read()
last=[x for x in s.split('\n') if x.startswith('| C%02d |'%(int(q['id'][1:])-1))][0]
s=s.replace(last,last+f"\n| {q['id']} | {q['design']} |")
for a,b in q.get('design_sub',[]):
    assert a in s,a
    s=s.replace(a,b)
open(p,'w').write(s)
