"""Copy the fixed text written by the writers of the gas routines of /repo/Parse_eqn_file.py into Lean.

Reads the repository as text (Python's own parser, nothing is executed) and writes
lean/Verif/Gen/Sources.lean.  Each list entry is the argument of one f.write call outside the loops over
reactions and species; the directives of OpenMP are left to the model."""
import ast
src=open('/repo/Parse_eqn_file.py').read()
tree=ast.parse(src)
fns={n.name:n for n in tree.body if isinstance(n,ast.FunctionDef)}
# what a %s stands for, by the text of the argument
names={'datetime.datetime.now()':'date','str(len(species_dict2array.keys()))':'species','str(num_species)':'species',
 'str(equations)':'reactions','str(num_species),str(num_species)':'species species'}
def top(fn):
    """f.write calls in statements of the function body itself, in order"""
    out=[]
    for st in fn.body:
        if isinstance(st,ast.Expr) and isinstance(st.value,ast.Call) and isinstance(st.value.func,ast.Attribute) and st.value.func.attr=='write':
            a=st.value.args[0]
            if isinstance(a,ast.Constant): out.append((st.lineno,a.value,[]))
            else:
                arg=ast.get_source_segment(src,a.right).strip()
                if arg.startswith('(') and arg.endswith(')'): arg=arg[1:-1].strip()
                out.append((st.lineno,a.left.value,names[arg].split()))
        elif isinstance(st,ast.For): out.append((st.lineno,None,None))
    return out
def lean(s):
    return 'chars% "'+s.replace('\\','\\\\').replace('"','\\"').replace('\n','\\n').replace('\t','\\t')+'"'
o=["import Verif.Py.Chars","","/-!","# Fixed text of the generated gas routines","",
"Written by `/verif/tools/gas_sources.py` from `/repo/Parse_eqn_file.py`: one entry per `f.write` outside",
"the loops, the number before it is the line of the call.  `date` is the time of writing, `species` and",
"`reactions` are the numbers of species and of reactions as printed.","-/","","namespace PyBox","namespace Rl",""]
for name,fn in [("reactantsPy","write_reactants_indices"),("reactantsF","write_reactants_indices_fortran"),
  ("lossGainPy","write_loss_gain_matrix"),("lossGainF","write_loss_gain_fortran"),
  ("jacobianPy","write_gas_jacobian_numba"),("jacobianF","write_gas_jacobian_fortran")]:
    w=top(fns[fn])
    first=min(i for i,x in enumerate(w) if x[1] is not None)
    loop=[i for i,x in enumerate(w) if x[1] is None and i>first][0]
    head=[x for x in w[first:loop] if x[1] is not None]
    foot=[x for x in w[loop:] if x[1] is not None]
    assert len([x for x in w[first:] if x[1] is None])==1
    d=[i for i,x in enumerate(head) if x[2]==['date']][0]
    def entries(l):
        r=[]
        for (n,t,a) in l:
            parts=t.split('%s') if a else [t]
            s=lean(parts[0])
            for p,v in zip(parts[1:],a): s+=" ++ "+v+" ++ "+lean(p)
            r.append("  /- %d -/ %s"%(n,s))
        return "[\n"+",\n".join(r)+"]"
    o.append("/-- `%s`: comment at the start of the file. -/"%fn)
    o.append("def %sTop : List Str := %s"%(name,entries(head[:d])))
    o.append("")
    ar=sorted({v for x in head[d+1:] for v in x[2]})
    o.append("/-- `%s`: from the line after the date to the loop. -/"%fn)
    o.append("def %sHead (%s : Str) : List Str := %s"%(name," ".join(['species','reactions']),entries(head[d+1:])) if ar else "def %sHead (_ _ : Str) : List Str := %s"%(name,entries(head[d+1:])))
    o.append("")
    o.append("/-- `%s`: after the loop. -/"%fn)
    o.append("def %sFoot : List Str := %s"%(name,entries(foot)))
    o.append("")
    print(name,head[d],len(head),foot,ar)
o+=["end Rl","end PyBox",""]
open('/verif/lean/Verif/Gen/Sources.lean','w').write("\n".join(o))
