import Verif.Spec.Time
/-!
# The texts of times for people
-/
namespace Asn1.Spec

/-- `YYYY-MM-DD hh:mm:ss` -/
def longDate (t : DateTime) : Bytes :=
  four t.year ++ ascii "-" ++ two t.month ++ ascii "-" ++ two t.day ++ ascii " " ++ two t.hour ++
    ascii ":" ++ two t.minute ++ ascii ":" ++ two t.second

/-- The same text without the separators between the components of the date and of the time:
`2002-12-13 14:29:23.5+0300` becomes `20021213142923.5+0300`. -/
def compact (text : Bytes) : Bytes :=
  text.take 4 ++ (text.drop 5).take 2 ++ (text.drop 8).take 2 ++ (text.drop 11).take 2 ++
    (text.drop 14).take 2 ++ text.drop 17

/-- What a number of milliseconds becomes when it is written without leading zeros after the point,
and read as a fraction: `.7` is read as 700 and `.42` as 420. -/
def misread (v : Nat) : Nat := if v < 10 then 100 * v else if v < 100 then 10 * v else v

end Asn1.Spec
