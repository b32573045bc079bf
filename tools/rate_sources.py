"""Copy the text written by the three rate-file writers of /repo/Parse_eqn_file.py into Lean.

Reads the repository as text (Python's own parser, nothing is executed) and writes
lean/Verif/Rate/Sources.lean.  Each list entry is the argument of one f.write call."""
import ast
src=open('/repo/Parse_eqn_file.py').read()
tree=ast.parse(src)
def writes(fn,lo,hi):
    out=[]
    for node in ast.walk(fn):
        if isinstance(node,ast.Call) and isinstance(node.func,ast.Attribute) and node.func.attr=='write' and lo<=node.lineno<=hi:
            a=node.args[0]
            if isinstance(a,ast.Constant):
                out.append((node.lineno,a.value))
            elif isinstance(a,ast.BinOp):
                t=a.left.value
                if '%E' in t:
                    v=ast.literal_eval(a.right.left)*ast.literal_eval(a.right.right)
                    out.append((node.lineno,t%v))
                else:
                    raise Exception(t)
    return sorted(out)
def lean(s):
    return '"'+s.replace('\\','\\\\').replace('"','\\"').replace('\n','\\n').replace('\t','\\t')+'"'
fns={n.name:n for n in tree.body if isinstance(n,ast.FunctionDef)}
o=["import Verif.Py.Chars","","/-!","# Text of the fixed part of the generated rate files",
"","Written by `/verif/tools/rate_sources.py` from `/repo/Parse_eqn_file.py`: one entry per `f.write`,",
"the number before it is the line of the call.  In `fortranWrites` the two `%E` conversions of lines",
"1372–1373 are replaced by the text they produce, and the declaration of `rate_values` (line 1314),","which depends on the mechanism, is left out.",
"-/","","namespace PyBox","namespace Rl",""]
for name,fn,lo,hi,doc in [("pyWrites","write_rate_file",479,792,"`write_rate_file`, lines 479–792."),
  ("numbaWrites","write_rate_file_numba",893,1260,"`write_rate_file_numba`, lines 893–1260."),
  ("fortranWrites","write_rate_file_fortran",1315,1743,"`write_rate_file_fortran`, lines 1315–1743.")]:
    w=writes(fns[fn],lo,hi)
    if name=="fortranWrites":
        w=[(1312,'    REAL(8), intent(in) :: RO2,H2O,TEMP \n')]+w
    n=30
    parts=[w[i:i+n] for i in range(0,len(w),n)]
    for k,part in enumerate(parts):
        o.append("def %s%d : List Str := ["%(name,k+1))
        for i,(l,t) in enumerate(part):
            o.append("  /- %d -/ chars%% %s%s"%(l,lean(t),"," if i<len(part)-1 else "]"))
        o.append("")
    o.append("/-- %s -/"%doc)
    o.append("def %s : List Str :=\n  "%name+" ++ ".join("%s%d"%(name,k+1) for k in range(len(parts))))
    o.append("")
o+=["end Rl","end PyBox",""]
open('/verif/lean/Verif/Rate/Sources.lean','w').write("\n".join(o))
