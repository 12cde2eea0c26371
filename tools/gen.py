import sys, os, json
d=os.path.dirname(os.path.abspath(__file__)); sys.path.insert(0,d)
import props_a, props_b
try:
    import props_c
except ImportError:
    pass
with open(os.path.join(d,'..','properties.jsonl'),'w') as f:
    for x in props_a.P: f.write(json.dumps(x)+'\n')
print(len(props_a.P))
