import json,glob,re
m={c['property']:c for c in json.load(open('/verif/MANIFEST.json'))['claims']}
loc={}
for f in glob.glob('/verif/lean/Verif/Props/*.lean'):
    for x in re.finditer(r'^theorem (?:Verif\.)?(C\d+_\w*)',open(f).read(),re.M): loc.setdefault(x.group(1).split("_")[0],set()).add(f.split('/')[-1][:-5])
how=json.load(open('/verif/tools/how.json'))
rows=[]
for l in open('/verif/properties.jsonl'):
    p=json.loads(l); i=p['id']; c=m[i]
    rows.append('| %s %s | %s | %s | %s |'%(i,p['title'].replace('|','/'),', '.join(sorted(loc[i])),c['status'],how.get(i,'')))
s=open('/verif/tools/DESIGN.in.md').read().replace('@TABLE@','\n'.join(rows))
open('/verif/DESIGN.md','w').write(s)
