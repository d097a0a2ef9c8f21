p='/verif/DESIGN.md'; s=open(p).read()
i=s.index("| C109 |"); j=s.index("\n",i)+1
s=s[:j]+"| C110 | R F | `Spec/Plane` (`farIndex`, `behind`, `kept`, `Visible` as clients write them). Floating point: every rounded operation is monotone, so the computed dot product is monotone in each coordinate in the direction of the normal's sign; `C33_corner` names the coordinates; unions through C26 and `Tree.search_eq`. Exact: one-dimensional identity `far_center`. `C110_center_wrong` is the `f32` witness against the center-and-extents form. |\n"+s[j:]
s=s.replace("a finite vector at an axis can give NaN although the mirror image is finite.","a finite vector at an axis can give NaN although the mirror image is finite; C110 the center-and-extents form of\nthe plane test drops boxes with visible points.")
open(p,'w').write(s)
p='/verif/lean/Verif.lean'; s=open(p).read()
s=s.rstrip("\n")+"\nimport Verif.Spec.Plane\nimport Verif.Props.FloatPlane\nimport Verif.Props.RealPlane\nimport Verif.Props.FloatPlaneEx\n"
open(p,'w').write(s)
