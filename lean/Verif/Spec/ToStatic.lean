import Verif.Model.ToStatic
/-!
# What it means that a value is a copy, and which octets it refers to (C97)
-/
namespace Asn1.Spec

mutual
/-- The value `v` refers to the octets `i` of an input. -/
inductive RefersTo (i : Input) : Shared → Prop
  | bytes : RefersTo i (.bytes (.borrowed i))
  | text {t} : RefersTo i (.text ⟨t, some i⟩)
  | header {h : Header} : h.rawHeader = some i → RefersTo i (.header h)
  | some {v} : RefersTo i v → RefersTo i (.some v)
  | boxed {v} : RefersTo i v → RefersTo i (.boxed v)
  | vec {vs} : OneRefersTo i vs → RefersTo i (.vec vs)
  | data {k vs} : OneRefersTo i vs → RefersTo i (.data k vs)
/-- One of the values refers to the octets `i`. -/
inductive OneRefersTo (i : Input) : Shareds → Prop
  | here {v vs} : RefersTo i v → OneRefersTo i (.cons v vs)
  | later {v vs} : OneRefersTo i vs → OneRefersTo i (.cons v vs)
end

mutual
/-- The two values have the same shape and their parts show the same: the same number, octets, text, or header
(all but the raw octets of the header). -/
inductive SameContents : Shared → Shared → Prop
  | plain {n} : SameContents (.plain n) (.plain n)
  | bytes {c d : Cow} : c.bytes = d.bytes → SameContents (.bytes c) (.bytes d)
  | text {s t : StrCow} : s.text = t.text → SameContents (.text s) (.text t)
  | header {g h : Header} : g.cls = h.cls → g.constructed = h.constructed → g.tag = h.tag → g.length = h.length →
      g.rawTag = h.rawTag → SameContents (.header g) (.header h)
  | none : SameContents .none .none
  | some {v w} : SameContents v w → SameContents (.some v) (.some w)
  | boxed {v w} : SameContents v w → SameContents (.boxed v) (.boxed w)
  | vec {vs ws} : AllSameContents vs ws → SameContents (.vec vs) (.vec ws)
  | data {k vs ws} : AllSameContents vs ws → SameContents (.data k vs) (.data k ws)
/-- As many values, the same one by one. -/
inductive AllSameContents : Shareds → Shareds → Prop
  | nil : AllSameContents .nil .nil
  | cons {v w vs ws} : SameContents v w → AllSameContents vs ws → AllSameContents (.cons v vs) (.cons w ws)
end

end Asn1.Spec
