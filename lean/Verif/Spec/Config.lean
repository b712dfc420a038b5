import Verif.Model.Vlr
/-! # Extra-byte data types of LAS 1.4 (R15, table 24) -/
namespace Copc

/-- Sizes of the ten scalar types: (u)char, (u)short, (u)long, (u)long long, float, double. -/
def lasScalarSize : Nat → Nat
  | 0 => 1 | 1 => 1
  | 2 => 2 | 3 => 2
  | 4 => 4 | 5 => 4
  | 6 => 8 | 7 => 8
  | 8 => 4
  | _ => 8

/-- Size in bytes of an item: type 0 is undocumented bytes whose number is in the options; types
1-10 are scalars, 11-20 pairs and 21-30 triples of the same scalars. -/
def lasItemSize (f : EbField) : Nat :=
  if f.dataType = 0 then f.options.toNat
  else lasScalarSize ((f.dataType.toNat - 1) % 10) * ((f.dataType.toNat - 1) / 10 + 1)

/-- Size of a point record of a format without extra bytes (LAS 1.4 R15, tables 17, 20, 21). -/
def lasBaseSize (fmt : Int) : Nat := if fmt = 6 then 30 else if fmt = 7 then 36 else 38

end Copc
