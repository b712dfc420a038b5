import json,sys
f='/verif/tools/notes.json'
d=json.load(open(f))
d[sys.argv[1]]=[sys.argv[2],sys.argv[3]]
json.dump(d,open(f,'w'),indent=0)
