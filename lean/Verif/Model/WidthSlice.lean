import Verif.Model.Width
/-!
# The byte-slice API on targets whose `usize` has `w` bits

`TryFrom<Any>` of the containers and of tagged values reads no header itself, so `seqTryFrom`, `setTryFrom`, `rawTryFrom`,
`explicitTryFrom`, `implicitTryFrom` and `aliasTryFrom` serve for every target, with the functions of the parts.
-/
namespace Asn1

variable {α σ : Type}

/-- src/from_ber.rs:59-77: `FromBer` for types with `TryFrom<Any>`, given the conversion. -/
def fromBerWithW (w : Nat) (tryFrom : Any → Except SErr α) (bytes : Bytes) : Except SErr (Bytes × α) := do
  let (i, any) ← wrapBerParser (parseBerAnyW w) bytes
  let result ← tryFrom any
  pure (i, result)

/-- src/asn1_types/sequence/vec.rs:150-175, sequence_of.rs:169-196, src/asn1_types/set/set_of.rs:175-198 `FromDer`. -/
def seqFromDerW (w : Nat) (tag : Nat) (g : Bytes → Except SErr (Bytes × α)) (bytes : Bytes) :
    Except SErr (Bytes × List α) := do
  let (rem, any) ← wrapBerParser (parseDerAnyW w) bytes
  assertTagS any.header tag
  let v ← collectItems g any.data.data
  pure (rem, v)

/-- src/asn1_types/set/btreeset.rs:91-118 and hashset.rs:92-120 `FromDer`. -/
def setFromDerW (w : Nat) (S : SetImpl α σ) (g : Bytes → Except SErr (Bytes × α)) (bytes : Bytes) :
    Except SErr (Bytes × σ) := do
  let (rem, any) ← wrapBerParser (parseDerAnyW w) bytes
  assertTagS any.header 17
  assertConstructedS any.header
  let items ← collectItems g any.data.data
  pure (rem, S.ofList items)

/-- `FromDer` for `Sequence` and `Set` (src/from_der.rs:93-114). -/
def rawFromDerW (w : Nat) (tag : Nat) (bytes : Bytes) : Except SErr (Bytes × RawSeq) := do
  let (i, any) ← wrapBerParser (parseDerAnyW w) bytes
  let result ← rawTryFrom tag any
  pure (i, result)

/-- src/asn1_types/tagged/explicit.rs:140-156 `FromDer`. -/
def explicitFromDerW (w : Nat) (cls : Class) (tag : Nat) (fromDer : Bytes → Except SErr (Bytes × α)) (bytes : Bytes) :
    Except SErr (Bytes × TaggedValue α) := do
  let (rem, any) ← wrapBerParser (parseDerAnyW w) bytes
  assertTagS any.header tag
  assertConstructedS any.header
  if any.header.cls ≠ cls then .error (.error (.unexpectedClass (some cls) any.header.cls))
  else do
    let (_, inner) ← fromDer any.data.data
    pure (rem, ⟨inner⟩)

/-- src/asn1_types/tagged/implicit.rs:142-164 `FromDer`. -/
def implicitFromDerW (w : Nat) (cls : Class) (tag : Nat) (innerTag : Nat) (tryFrom : Any → Except SErr α)
    (bytes : Bytes) : Except SErr (Bytes × TaggedValue α) := do
  let (rem, any) ← wrapBerParser (parseDerAnyW w) bytes
  let t ← implicitTryFrom cls tag innerTag tryFrom any
  pure (rem, t)

/-- derive/src/container.rs:884-885 and 897-898; untagged: 906. -/
def SliceType.taggedW (w : Nat) (m : Rules) (tag : FieldTag) (ty : SliceType α) (i : Bytes) :
    Except SErr (Bytes × α) :=
  match tag, m with
  | .untagged, _ => ty.from_ i
  | .explicit cls n, .ber => do
    let (i, t) ← fromBerWithW w (explicitTryFrom cls n ty.from_) i
    pure (i, t.inner)
  | .explicit cls n, .der => do
    let (i, t) ← explicitFromDerW w cls n ty.from_ i
    pure (i, t.inner)
  | .implicit cls n, .ber => do
    let (i, t) ← fromBerWithW w (implicitTryFrom cls n ty.tag ty.tryFrom) i
    pure (i, t.inner)
  | .implicit cls n, .der => do
    let (i, t) ← implicitFromDerW w cls n ty.tag ty.tryFrom i
    pure (i, t.inner)

/-- derive/src/container.rs:877-892: a field that is tagged and optional. -/
def SliceType.optTaggedW (w : Nat) (m : Rules) (tag : FieldTag) (n : Nat) (ty : SliceType α) (i : Bytes) :
    Except SErr (Bytes × Option α) :=
  if i.isEmpty then .ok (i, none)
  else do
    let (_, h) ← wrapBerParser (m.headerW w) i
    if h.tag = n then do
      let (i, t) ← ty.taggedW w m tag i
      pure (i, some t)
    else pure (i, none)

/-- 877-892 if tagged, `Option<T>::from_ber` (905-907) if not. -/
def SliceType.optionalW (w : Nat) (m : Rules) (tag : FieldTag) (ty : SliceType α) :
    Bytes → Except SErr (Bytes × Option α) :=
  match tag with
  | .untagged => optionFrom ty.acceptTag (m.headerW w) ty.from_
  | .explicit _ n => ty.optTaggedW w m tag n
  | .implicit _ n => ty.optTaggedW w m tag n

/-- derive/src/container.rs:830-910 `get_field_parser`. -/
def SliceField.parseW (w : Nat) (m : Rules) : {T : Type} → SliceField T → Bytes → Except SErr (Bytes × T)
  | _, .required tag ty, i => ty.taggedW w m tag i
  | _, .optional tag ty, i => ty.optionalW w m tag i
  | _, .default tag ty x, i => do
    let (i, v) ← ty.optionalW w m tag i
    pure (i, v.getD x)

/-- derive/src/container.rs:815-828 `derive_ber_sequence_content`. -/
def SliceFields.runW (w : Nat) (m : Rules) : {Ts : List Type} → SliceFields Ts → Bytes → Except SErr (Bytes × Tup Ts)
  | _, .nil, i => .ok (i, ())
  | _, .cons f fs, i => do
    let (i, v) ← f.parseW w m i
    let (i, vs) ← fs.runW w m i
    pure (i, (v, vs))

/-- derive/src/container.rs:185-197 and 207 `TryFrom<Any>`. -/
def structTryFromW (w : Nat) (tag : Nat) {Ts : List Type} (fs : SliceFields Ts) (any : Any) : Except SErr (Tup Ts) := do
  assertTagS any.header tag
  match fs.runW w .ber any.data.data with
  | .ok (_, v) => .ok v
  | .error e => .error e.flatten

/-- derive/src/container.rs:481-490 and 498 `FromDer`. -/
def structFromDerW (w : Nat) (tag : Nat) {Ts : List Type} (fs : SliceFields Ts) (bytes : Bytes) :
    Except SErr (Bytes × Tup Ts) := do
  let (rem, any) ← wrapBerParser (parseDerAnyW w) bytes
  assertTagS any.header tag
  let (_, v) ← fs.runW w .der any.data.data
  pure (rem, v)

/-- derive/src/container.rs:473-478 `FromDer` (`DerAlias`). -/
def aliasFromDerW (w : Nat) (tag : Nat) (tryFrom : Any → Except SErr α) (bytes : Bytes) :
    Except SErr (Bytes × Alias α) := do
  let (rem, any) ← wrapBerParser (parseDerAnyW w) bytes
  assertTagS any.header tag
  let res ← tryFrom any
  pure (rem, ⟨res⟩)

/-- derive/src/container.rs:468-471 `FromDer` (`DerAlias`) of `struct A(Any)`. -/
def aliasAnyFromDerW (w : Nat) (bytes : Bytes) : Except SErr (Bytes × Alias Any) := do
  let (rem, any) ← wrapBerParser (parseDerAnyW w) bytes
  pure (rem, ⟨any⟩)

end Asn1
