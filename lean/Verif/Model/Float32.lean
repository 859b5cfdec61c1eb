import Verif.Model.Real
/-!
# REAL as `f32`: src/asn1_types/real/f32.rs, src/asn1_types/real.rs:150-155, 476-492

The numbers of `f32` are among those of `f64`, so an `f32` is an `F64` here (`F32Valid` in `Spec/Float32`
says which ones), and `f64::from(f: f32)` is the identity.
-/
namespace Asn1

/-- `f32`. -/
abbrev F32 := F64

namespace F64

/-- The exponent of the last place of an `f32`: 24 bits of precision, and nothing below `2^-149`. -/
def lastPlace32 (num : Nat) (exp : Int) : Int := max (exp + num.log2 - 23) (-149)

/-- The number `±num * 2^exp`, which is representable as `f32` or too large. -/
def make32 (neg : Bool) (num : Nat) (exp : Int) : F32 :=
  if num = 0 then .fin neg 0 0
  else if exp + num.log2 ≥ 128 then .inf neg
  else .fin neg (strip num.log2 num exp).1 (strip num.log2 num exp).2

/-- `x as f32`: rounding to nearest, ties to even (Rust reference, numeric casts). -/
def toF32 : F64 → F32
  | .nan => .nan
  | .inf s => .inf s
  | .fin s n e =>
    if lastPlace32 n e ≤ e then make32 s n e
    else make32 s (roundShift n (lastPlace32 n e - e).toNat) (lastPlace32 n e)

end F64

/-- src/asn1_types/real.rs:150-155 `Real::f32`; also lines 488-492 `From<Real> for f32`. -/
def Real.f32 (lib : FloatLib) (r : Real) : F32 := (r.f64 lib).toF32

/-- src/asn1_types/real.rs:476-480 `From<f32> for Real`. -/
def Real.ofF32 (f : F32) : Option Real := Real.new f

/-- src/asn1_types/real/f32.rs:8-33 `BerParser`/`DerParser` for `f32`. -/
def f32P (lib : FloatLib) : Parser F32 := (realP lib).map (Real.f32 lib)

/-- src/asn1_types/real/f32.rs:50-74 `ToBer`/`ToDer` for `f32`: those of `Real::from(*self)`. (An endless
`Real::new` would be one here; it ends, `C74_real_new`.) -/
def f32ToBer (lib : FloatLib) : ToBer F32 where
  encoder := .primitive tagReal
  contentLen f := (match Real.ofF32 f with
    | some r => realContentLen lib r
    | none => .definite 0)
  tagInfo _ := (.universal, false, tagReal)
  writeContent f := (match Real.ofF32 f with
    | some r => realWrite lib r
    | none => Wr.fail .panic)

end Asn1
