import ast,re,collections
src=open('/repo/Parse_eqn_file.py').read()
t=ast.parse(src)
for n in ast.walk(t):
    if isinstance(n,ast.FunctionDef) and n.name=='write_RO2_indices':
        for a in n.body:
            if isinstance(a,ast.Assign) and a.targets[0].id=='RO2_names':
                L=ast.literal_eval(a.value)
if __name__=='__main__':
    print(len(L),[k for k,v in collections.Counter(L).items() if v>1])
    print([x for x in L if not re.fullmatch('[A-Z0-9]+',x)])
    good=set(x for x in L if re.fullmatch('[A-Z0-9]+',x))
    for x in L:
        if not re.fullmatch('[A-Z0-9]+',x): print(x,[y in good for y in re.findall('[A-Z0-9]+',x)])
    def emit(names,ident,doc):
        out=[];parts=[]
        for i in range(0,len(names),30):
            parts.append(f"{ident}{i//30+1}")
            body=", ".join(f'chars% "{x}"' for x in names[i:i+30])
            import textwrap
            out.append(f"def {parts[-1]} : List Str := [\n"+"\n".join(textwrap.wrap(body,96,initial_indent="  ",subsequent_indent="  ",break_long_words=False))+"]\n")
        out.append(f"/-- {doc} -/\ndef {ident} : List Str :=\n"+"\n".join(textwrap.wrap(" ++ ".join(parts),96,initial_indent="  ",subsequent_indent="  "))+"\n")
        return "\n".join(out)
    fixed=[w for x in L for w in re.findall('[A-Z0-9]+',x)]
    # textwrap must not break between chars% and its literal: use a no-break placeholder
    txt='''import Verif.Py.Chars

/-!
# The peroxy radical names

Written by `/verif/tools/ro2.py` from `/repo/Parse_eqn_file.py` lines 1787–2120.
`ro2Names` is the value of the list in the source: nine of its entries are not names of species
(a missing quote joins two names, eight entries end in a bracket). `Spec.peroxyRadicals` is the
published list the source transcribes: the same names without that damage.
-/

namespace PyBox

'''+emit(L,"ro2Names","`RO2_names`, lines 1787–2120.")+"\nnamespace Spec\n\n"+emit(fixed,"peroxyRadicals","The radicals that contribute to the total.")+"\nend Spec\n\nend PyBox\n"
    txt=re.sub(r'chars%\s+"',r'chars% "',txt)
    open('/verif/lean/Verif/Gen/Peroxy.lean','w').write(txt)
    print(len(fixed),len(set(fixed)))
