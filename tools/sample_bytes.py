import sys,re,json,subprocess
sys.path.insert(0,'/verif/tools'); sys.argv=['x']
import typed as T
T.W=T.build(); T.emit()
B={}
imp=['import Verif.Proof.Typed.%s'%m for m,_ in T.MODS]+['import Verif.Proof.Typed.Sample']
L=['set_option maxRecDepth 8192','namespace PdfW','open Spec']
keys=[]
for mod,ws in T.MODS:
    q=T.QS[mod]
    L+=re.findall(r'^def ex.*$',q,re.M)
    keys+=re.findall(r'@@(.*?)@@',q)
for k in keys:
    if '.write ' in k: L.append('#eval IO.println s!"{repr %s}"; IO.println ("KEY\\t%s\\t" ++ String.ofList (((streamOut (%s)).getD []).map fun b => Char.ofNat b.toNat) ++ "\\tEND")'.replace('IO.println s!"{repr %s}"; ','')%(json.dumps(k)[1:-1],k))
    else: L.append('#eval IO.println ("KEY\\t%s\\t" ++ String.ofList ((compactOut (%s)).map fun b => Char.ofNat b.toNat) ++ "\\tEND")'%(k,k))
open('/tmp/w/bytes.lean','w').write('\n'.join(imp+L)+'\nend PdfW\n')
r=subprocess.run('cd /verif/lean && lake env lean /tmp/w/bytes.lean',shell=True,capture_output=True,text=True).stdout
for k,v in re.findall(r'KEY\t(.*?)\t(.*?)\tEND',r,re.S):
    assert all(32<=ord(c)<127 or c=='\n' for c in v),(k,v)
    B[k]='b!"'+v.replace('\\','\\\\').replace('"','\\"').replace('\n','\\n')+'"'
print(len(B),len(keys)); 
e=[l for l in r.split('\n') if 'error' in l]; print('\n'.join(e[:20]))
json.dump(B,open('/verif/tools/sample_bytes.json','w'),indent=0)
for k in B: print(k,B[k])
