import Verif.Spec.Ber
/-!
# Specification: the headers of an object (C115)
-/
namespace Asn1.Spec
open Asn1

mutual
/-- The bytes are one complete element, and reading it takes `n` headers: its own and, if its length is
indefinite, those of the elements within it and of the end-of-contents octets. -/
inductive HeadersIn : Bytes → Nat → Prop
  | definite {bs} (h : DefElem bs) : HeadersIn bs 1
  | indefinite {c tag id len body n} (hi : Ident c true tag id) (hl : Len true .indefinite len)
      (hb : HeadersOf body n) : HeadersIn (id ++ len ++ body) (1 + n)

/-- Elements up to end-of-contents octets, with the headers of all of them. -/
inductive HeadersOf : Bytes → Nat → Prop
  | eoc {bs} (h : LaxEoc bs) : HeadersOf bs 1
  | cons {it rest n m} (h : HeadersIn it n) (hne : ¬ LaxEoc it) (ht : HeadersOf rest m) :
      HeadersOf (it ++ rest) (n + m)
end

end Asn1.Spec
