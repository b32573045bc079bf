"""Copy the text written by write_partitioning_section_fortran of /repo/Parse_eqn_file.py into Lean.

Reads the repository as text (Python's own parser, nothing is executed) and writes
lean/Verif/Aerosol/SourceAll.lean.  Each list entry is the argument of one f.write call; the numbers put into
the text are holes."""
import ast
src=open('/repo/Parse_eqn_file.py').read()
tree=ast.parse(src)
fn=[n for n in tree.body if isinstance(n,ast.FunctionDef) and n.name=='write_partitioning_section_fortran'][0]
names={'datetime.datetime.now()':['date'],'total_length_y':['total'],'num_bins':['bins'],'num_species':['species'],
 'num_species+1':['cond1'],'num_species,num_bins':['species','bins']}
out=[]
for st in fn.body:
    if isinstance(st,ast.Expr) and isinstance(st.value,ast.Call) and isinstance(st.value.func,ast.Attribute) and st.value.func.attr=='write':
        a=st.value.args[0]
        if isinstance(a,ast.Constant): out.append((st.lineno,a.value,[]))
        else:
            arg=ast.get_source_segment(src,a.right).strip()
            if arg.startswith('(') and arg.endswith(')') and not arg.startswith('()'): arg=arg[1:-1].strip()
            out.append((st.lineno,a.left.value,names[arg]))
    else: assert not isinstance(st,(ast.For,ast.If,ast.While)),st
def lean(s):
    return '.txt (chars% "'+s.replace('\\','\\\\').replace('"','\\"').replace('\n','\\n').replace('\t','\\t')+'")'
def entries(l):
    r=[]
    for (n,t,a) in l:
        assert t.endswith('\n') and t.count('\n')==1
        parts=t[:-1].split('%s') if a else [t[:-1]]
        s=[lean(parts[0])]
        for p,v in zip(parts[1:],a): s+=['.hole .'+v,lean(p)]
        r.append("  /- %d -/ [%s]"%(n,", ".join(s)))
    return "[\n"+",\n".join(r)+"]"
d=[i for i,x in enumerate(out) if x[2]==['date']][0]
o=["import Verif.Aerosol.Source","","/-!","# Fixed text of the partitioning routine for all species","",
"Written by `/verif/tools/partition_source_all.py` from `write_partitioning_section_fortran`",
"(`/repo/Parse_eqn_file.py` 3203–3416), which no driver calls: one entry per `f.write`, without the line feed at",
"its end; the number before it is the line of the call.  The hole `cond1` is `num_species+1`.","-/","","namespace PyBox","namespace Ft","",
"/-- Comment before the line with the date. -/","def allTop : List (List Piece) := "+entries(out[:d]),"",
"/-- After the line with the date. -/","def allRest : List (List Piece) := "+entries(out[d+1:]),"","end Ft","end PyBox",""]
open('/verif/lean/Verif/Aerosol/SourceAll.lean','w').write("\n".join(o))
print(out[d],len(out))
