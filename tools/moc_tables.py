# generates lean/Verif/Model/MocTables.lean from the literal tables in /repo/pdr/formats/mgs_moc.py
import ast
t=ast.parse(open('/repo/pdr/formats/mgs_moc.py').read())
env={}; where={}
for n in t.body:
    if isinstance(n,ast.Assign) and isinstance(n.targets[0],ast.Name):
        try: env[n.targets[0].id]=ast.literal_eval(n.value); where[n.targets[0].id]=(n.lineno,n.end_lineno)
        except Exception: pass
out=["/-\nThe tables of `pdr/formats/mgs_moc.py`, copied by tools/moc_tables.py.\n-/\n","namespace Verif.Moc\n"]
def emit(name,lean,fmt=str):
    a,b=where[name]
    v=env[name]
    lines=[]; cur="  "
    items=[fmt(x) for x in v]
    for i,x in enumerate(items):
        piece=x+(", " if i+1<len(items) else "]")
        if len(cur)+len(piece)>118: lines.append(cur.rstrip()); cur="   "
        cur+=piece
    lines.append(cur)
    lines[0]="  ["+lines[0].lstrip()
    out.append(f"/-- mgs_moc.py {a}-{b} `{name}` -/\ndef {lean} : List Nat :=\n"+"\n".join(lines)+"\n")
for k in range(8):
    emit(f'code{k}_bits',f'code{k}Bits'); emit(f'code{k}_len',f'code{k}Len')
emit('code7_requant','code7Requant'); emit('code_ident_requant','codeIdentRequant')
emit('trans','trans')
for k in range(8):
    emit(f'num{k}',f'num{k}'); emit(f'code{k}',f'dct{k}')
emit('sizes','sizes')
from fractions import Fraction
env['cosineDouble']=[Fraction(x)*2**60 for x in env['cosineDouble']]
assert all(x.denominator==1 for x in env['cosineDouble'])
emit('cosineDouble','cosine60')
out[-1]=out[-1].replace('`cosineDouble` -/','`cosineDouble`: the doubles nearest to the decimals there, times 2 to the 60 -/')
out.append("end Verif.Moc\n")
open('/verif/lean/Verif/Model/MocTables.lean','w').write("\n".join(out))
