#!/usr/bin/env python3
"""Generate lean/Verif/Rust/Source.lean: byte-identical copies of /repo/src/*.rs."""
files=["lib","scalar","minmax","dot","cross","length","distance","union","intersection","transform","dimension2","dimension3","vector2","vector3","point2","point3","ray2","ray3","boundingbox2","boundingbox3","transform2","transform3"]
out="""import Verif.Rust.Quote
/-! # The source text of the crate

Byte-identical copies of `/repo/src/*.rs` (made by `tools/gen/source.py`).
`name.text` is the text and `name` the syntax tree; `Props/SourceText.lean` proves that the tree is what the parser makes
of the text.

The crate is Copyright 2024 Jesper de Jong, licensed under the Apache License, Version 2.0. -/

namespace VecMath.Rust.Src

"""
for f in files:
    t=open('/repo/src/'+f+'.rs').read()
    assert '"##' not in t
    out+='rust_source '+f+' := r##"'+t+'"##\n\n'
out+="""rust_crate crate := ["""+", ".join(files)+"""]

/-- `crate` is the whole crate. -/
theorem crate_eq : crate = List.foldl Crate.append {} ["""+", ".join(files)+"""] := by kernel_rfl

end VecMath.Rust.Src
"""
open('/verif/lean/Verif/Rust/Source.lean','w').write(out)

out="""import Verif.Rust.Source
/-! # The syntax trees are what the parser makes of the source text

Generated by `tools/gen/source.py`. The parser is evaluated by the kernel on each of the 22 source files. -/

namespace VecMath.Rust
set_option maxRecDepth 100000

"""
for f in files:
    out+=f"/-- `src/{f}.rs` -/\ntheorem C81_text_{f} : parse Src.{f}.text = some Src.{f} := by kernel_parse\n"
out+="""
/-- `Src.crate` is what the 22 files parse to, together. -/
theorem C81_text :
    ([%s].mapM parse).map (List.foldl Crate.append {}) =
      some Src.crate := by
  rw [Src.crate_eq]
  simp only [List.mapM_cons, List.mapM_nil, %s]
  rfl

end VecMath.Rust
"""%(", ".join(f"Src.{f}.text" for f in files),", ".join(f"C81_text_{f}" for f in files))
open('/verif/lean/Verif/Props/SourceText.lean','w').write(out)
