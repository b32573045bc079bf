"""Copy the text written by write_partitioning_section_fortran_ignore of /repo/Parse_eqn_file.py into Lean.

Reads the repository as text (Python's own parser, nothing is executed) and writes
lean/Verif/Aerosol/Source.lean.  Each list entry is the argument of one f.write call outside the loop over
include_index; the numbers put into the text are holes."""
import ast
src=open('/repo/Parse_eqn_file.py').read()
tree=ast.parse(src)
fn=[n for n in tree.body if isinstance(n,ast.FunctionDef) and n.name=='write_partitioning_section_fortran_ignore'][0]
names={'datetime.datetime.now()':['date'],'total_length_y':['total'],'num_bins':['bins'],'num_species':['species'],
 'num_species_condensed':['cond'],'num_species_condensed+1':['cond1'],'num_species,num_bins':['species','bins']}
out=[]
for st in fn.body:
    if isinstance(st,ast.Expr) and isinstance(st.value,ast.Call) and isinstance(st.value.func,ast.Attribute) and st.value.func.attr=='write':
        a=st.value.args[0]
        if isinstance(a,ast.Constant): out.append((st.lineno,a.value,[]))
        else:
            arg=ast.get_source_segment(src,a.right).strip()
            if arg.startswith('(') and arg.endswith(')') and not arg.startswith('()'): arg=arg[1:-1].strip()
            out.append((st.lineno,a.left.value,names[arg]))
    elif isinstance(st,ast.For): out.append((st.lineno,None,None))
def lean(s):
    return '.txt (chars% "'+s.replace('\\','\\\\').replace('"','\\"').replace('\n','\\n').replace('\t','\\t')+'")'
def entries(l):
    r=[]
    for (n,t,a) in l:
        assert t.endswith('\n') and t.count('\n')==1
        parts=t[:-1].split('%s') if a else [t[:-1]]
        s=[lean(parts[0])]
        for p,v in zip(parts[1:],a): s+=['.hole .'+v,lean(p)]
        r.append("  /- %d -/ [%s]"%(n,", ".join(s)))
    return "[\n"+",\n".join(r)+"]"
d=[i for i,x in enumerate(out) if x[2]==['date']][0]
loop=[i for i,x in enumerate(out) if x[1] is None][0]
assert len([x for x in out if x[1] is None])==1
o=["import Verif.Py.Chars","","/-!","# Fixed text of the generated partitioning routine","",
"Written by `/verif/tools/partition_source.py` from `write_partitioning_section_fortran_ignore`",
"(`/repo/Parse_eqn_file.py` 3418–3650): one entry per `f.write` outside the loop over `include_index`, without",
"the line feed at its end; the number before it is the line of the call.","-/","","namespace PyBox","namespace Ft","",
"/-- The numbers the writer puts into the text: `total_length_y`, `num_bins`, `num_species`,",
"`num_species_condensed` and `num_species_condensed+1`. -/","inductive Hole where","  | total | bins | species | cond | cond1","  deriving DecidableEq","",
"/-- A line is made of fixed text and numbers. -/","inductive Piece where","  | txt (s : Str)","  | hole (h : Hole)","  deriving DecidableEq","",
"/-- Comment before the line with the date. -/","def partTop : List (List Piece) := "+entries(out[:d]),"",
"/-- From the line after the date to the loop over `include_index`. -/","def partHead : List (List Piece) := "+entries(out[d+1:loop]),"",
"/-- After the loop. -/","def partFoot : List (List Piece) := "+entries(out[loop+1:]),"","end Ft","end PyBox",""]
open('/verif/lean/Verif/Aerosol/Source.lean','w').write("\n".join(o))
print(out[d],out[loop],len(out))
