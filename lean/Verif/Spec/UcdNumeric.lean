/-
Specification: the numeric values of Unicode 14.0 (property `Numeric_Value`).
Generated from the `unicodedata` module (version 14.0.0) of the Python standard library.
-/
set_option maxRecDepth 20000
namespace Ctre.Unicode14

/-- Consecutive code points `first`, …, `first + count - 1` with the values `num/den`, `(num+step)/den`, `(num+2·step)/den`, … -/
structure NumRun where
  first : Nat
  count : Nat
  num : Int
  step : Int
  den : Nat

/-- All code points with a numeric value; the fractions are in lowest terms. -/
def numericRuns : List NumRun := [
  ⟨0x30, 10, 0, 1, 1⟩, ⟨0xB2, 2, 2, 1, 1⟩, ⟨0xB9, 1, 1, 0, 1⟩, ⟨0xBC, 1, 1, 0, 4⟩, ⟨0xBD, 1, 1, 0, 2⟩,
  ⟨0xBE, 1, 3, 0, 4⟩, ⟨0x660, 10, 0, 1, 1⟩, ⟨0x6F0, 10, 0, 1, 1⟩, ⟨0x7C0, 10, 0, 1, 1⟩, ⟨0x966, 10, 0, 1, 1⟩,
  ⟨0x9E6, 10, 0, 1, 1⟩, ⟨0x9F4, 1, 1, 0, 16⟩, ⟨0x9F5, 1, 1, 0, 8⟩, ⟨0x9F6, 1, 3, 0, 16⟩, ⟨0x9F7, 2, 1, 2, 4⟩,
  ⟨0x9F9, 1, 16, 0, 1⟩, ⟨0xA66, 10, 0, 1, 1⟩, ⟨0xAE6, 10, 0, 1, 1⟩, ⟨0xB66, 10, 0, 1, 1⟩, ⟨0xB72, 1, 1, 0, 4⟩,
  ⟨0xB73, 1, 1, 0, 2⟩, ⟨0xB74, 1, 3, 0, 4⟩, ⟨0xB75, 1, 1, 0, 16⟩, ⟨0xB76, 1, 1, 0, 8⟩, ⟨0xB77, 1, 3, 0, 16⟩,
  ⟨0xBE6, 11, 0, 1, 1⟩, ⟨0xBF1, 2, 100, 900, 1⟩, ⟨0xC66, 10, 0, 1, 1⟩, ⟨0xC78, 4, 0, 1, 1⟩, ⟨0xC7C, 3, 1, 1, 1⟩,
  ⟨0xCE6, 10, 0, 1, 1⟩, ⟨0xD58, 1, 1, 0, 160⟩, ⟨0xD59, 1, 1, 0, 40⟩, ⟨0xD5A, 1, 3, 0, 80⟩, ⟨0xD5B, 1, 1, 0, 20⟩,
  ⟨0xD5C, 1, 1, 0, 10⟩, ⟨0xD5D, 1, 3, 0, 20⟩, ⟨0xD5E, 1, 1, 0, 5⟩, ⟨0xD66, 11, 0, 1, 1⟩, ⟨0xD71, 2, 100, 900, 1⟩,
  ⟨0xD73, 1, 1, 0, 4⟩, ⟨0xD74, 1, 1, 0, 2⟩, ⟨0xD75, 1, 3, 0, 4⟩, ⟨0xD76, 1, 1, 0, 16⟩, ⟨0xD77, 1, 1, 0, 8⟩,
  ⟨0xD78, 1, 3, 0, 16⟩, ⟨0xDE6, 10, 0, 1, 1⟩, ⟨0xE50, 10, 0, 1, 1⟩, ⟨0xED0, 10, 0, 1, 1⟩, ⟨0xF20, 10, 0, 1, 1⟩,
  ⟨0xF2A, 9, 1, 2, 2⟩, ⟨0xF33, 1, -1, 0, 2⟩, ⟨0x1040, 10, 0, 1, 1⟩, ⟨0x1090, 10, 0, 1, 1⟩, ⟨0x1369, 10, 1, 1, 1⟩,
  ⟨0x1373, 9, 20, 10, 1⟩, ⟨0x137C, 1, 10000, 0, 1⟩, ⟨0x16EE, 3, 17, 1, 1⟩, ⟨0x17E0, 10, 0, 1, 1⟩,
  ⟨0x17F0, 10, 0, 1, 1⟩, ⟨0x1810, 10, 0, 1, 1⟩, ⟨0x1946, 10, 0, 1, 1⟩, ⟨0x19D0, 10, 0, 1, 1⟩, ⟨0x19DA, 1, 1, 0, 1⟩,
  ⟨0x1A80, 10, 0, 1, 1⟩, ⟨0x1A90, 10, 0, 1, 1⟩, ⟨0x1B50, 10, 0, 1, 1⟩, ⟨0x1BB0, 10, 0, 1, 1⟩, ⟨0x1C40, 10, 0, 1, 1⟩,
  ⟨0x1C50, 10, 0, 1, 1⟩, ⟨0x2070, 1, 0, 0, 1⟩, ⟨0x2074, 6, 4, 1, 1⟩, ⟨0x2080, 10, 0, 1, 1⟩, ⟨0x2150, 1, 1, 0, 7⟩,
  ⟨0x2151, 1, 1, 0, 9⟩, ⟨0x2152, 1, 1, 0, 10⟩, ⟨0x2153, 2, 1, 1, 3⟩, ⟨0x2155, 4, 1, 1, 5⟩, ⟨0x2159, 2, 1, 4, 6⟩,
  ⟨0x215B, 4, 1, 2, 8⟩, ⟨0x215F, 2, 1, 0, 1⟩, ⟨0x2161, 11, 2, 1, 1⟩, ⟨0x216C, 2, 50, 50, 1⟩,
  ⟨0x216E, 2, 500, 500, 1⟩, ⟨0x2170, 12, 1, 1, 1⟩, ⟨0x217C, 2, 50, 50, 1⟩, ⟨0x217E, 2, 500, 500, 1⟩,
  ⟨0x2180, 2, 1000, 4000, 1⟩, ⟨0x2182, 1, 10000, 0, 1⟩, ⟨0x2185, 2, 6, 44, 1⟩, ⟨0x2187, 2, 50000, 50000, 1⟩,
  ⟨0x2189, 1, 0, 0, 1⟩, ⟨0x2460, 20, 1, 1, 1⟩, ⟨0x2474, 20, 1, 1, 1⟩, ⟨0x2488, 20, 1, 1, 1⟩, ⟨0x24EA, 2, 0, 11, 1⟩,
  ⟨0x24EC, 9, 12, 1, 1⟩, ⟨0x24F5, 10, 1, 1, 1⟩, ⟨0x24FF, 1, 0, 0, 1⟩, ⟨0x2776, 10, 1, 1, 1⟩, ⟨0x2780, 10, 1, 1, 1⟩,
  ⟨0x278A, 10, 1, 1, 1⟩, ⟨0x2CFD, 1, 1, 0, 2⟩, ⟨0x3007, 1, 0, 0, 1⟩, ⟨0x3021, 9, 1, 1, 1⟩, ⟨0x3038, 3, 10, 10, 1⟩,
  ⟨0x3192, 4, 1, 1, 1⟩, ⟨0x3220, 10, 1, 1, 1⟩, ⟨0x3248, 8, 10, 10, 1⟩, ⟨0x3251, 15, 21, 1, 1⟩, ⟨0x3280, 10, 1, 1, 1⟩,
  ⟨0x32B1, 15, 36, 1, 1⟩, ⟨0x3405, 1, 5, 0, 1⟩, ⟨0x3483, 1, 2, 0, 1⟩, ⟨0x382A, 1, 5, 0, 1⟩, ⟨0x3B4D, 1, 7, 0, 1⟩,
  ⟨0x4E00, 1, 1, 0, 1⟩, ⟨0x4E03, 1, 7, 0, 1⟩, ⟨0x4E07, 1, 10000, 0, 1⟩, ⟨0x4E09, 1, 3, 0, 1⟩, ⟨0x4E5D, 1, 9, 0, 1⟩,
  ⟨0x4E8C, 1, 2, 0, 1⟩, ⟨0x4E94, 1, 5, 0, 1⟩, ⟨0x4E96, 1, 4, 0, 1⟩, ⟨0x4EBF, 2, 100000000, -99999990, 1⟩,
  ⟨0x4EDF, 1, 1000, 0, 1⟩, ⟨0x4EE8, 1, 3, 0, 1⟩, ⟨0x4F0D, 1, 5, 0, 1⟩, ⟨0x4F70, 1, 100, 0, 1⟩,
  ⟨0x5104, 1, 100000000, 0, 1⟩, ⟨0x5146, 1, 1000000000000, 0, 1⟩, ⟨0x5169, 1, 2, 0, 1⟩, ⟨0x516B, 1, 8, 0, 1⟩,
  ⟨0x516D, 1, 6, 0, 1⟩, ⟨0x5341, 1, 10, 0, 1⟩, ⟨0x5343, 2, 1000, -980, 1⟩, ⟨0x5345, 1, 30, 0, 1⟩,
  ⟨0x534C, 1, 40, 0, 1⟩, ⟨0x53C1, 4, 3, 0, 1⟩, ⟨0x56DB, 1, 4, 0, 1⟩, ⟨0x58F1, 1, 1, 0, 1⟩, ⟨0x58F9, 1, 1, 0, 1⟩,
  ⟨0x5E7A, 1, 1, 0, 1⟩, ⟨0x5EFE, 2, 9, 11, 1⟩, ⟨0x5F0C, 3, 1, 1, 1⟩, ⟨0x5F10, 1, 2, 0, 1⟩, ⟨0x62FE, 1, 10, 0, 1⟩,
  ⟨0x634C, 1, 8, 0, 1⟩, ⟨0x67D2, 1, 7, 0, 1⟩, ⟨0x6F06, 1, 7, 0, 1⟩, ⟨0x7396, 1, 9, 0, 1⟩, ⟨0x767E, 1, 100, 0, 1⟩,
  ⟨0x8086, 1, 4, 0, 1⟩, ⟨0x842C, 1, 10000, 0, 1⟩, ⟨0x8CAE, 1, 2, 0, 1⟩, ⟨0x8CB3, 1, 2, 0, 1⟩, ⟨0x8D30, 1, 2, 0, 1⟩,
  ⟨0x9621, 1, 1000, 0, 1⟩, ⟨0x9646, 1, 6, 0, 1⟩, ⟨0x964C, 1, 100, 0, 1⟩, ⟨0x9678, 1, 6, 0, 1⟩, ⟨0x96F6, 1, 0, 0, 1⟩,
  ⟨0xA620, 10, 0, 1, 1⟩, ⟨0xA6E6, 9, 1, 1, 1⟩, ⟨0xA6EF, 1, 0, 0, 1⟩, ⟨0xA830, 1, 1, 0, 4⟩, ⟨0xA831, 1, 1, 0, 2⟩,
  ⟨0xA832, 1, 3, 0, 4⟩, ⟨0xA833, 1, 1, 0, 16⟩, ⟨0xA834, 1, 1, 0, 8⟩, ⟨0xA835, 1, 3, 0, 16⟩, ⟨0xA8D0, 10, 0, 1, 1⟩,
  ⟨0xA900, 10, 0, 1, 1⟩, ⟨0xA9D0, 10, 0, 1, 1⟩, ⟨0xA9F0, 10, 0, 1, 1⟩, ⟨0xAA50, 10, 0, 1, 1⟩, ⟨0xABF0, 10, 0, 1, 1⟩,
  ⟨0xF96B, 1, 3, 0, 1⟩, ⟨0xF973, 1, 10, 0, 1⟩, ⟨0xF978, 1, 2, 0, 1⟩, ⟨0xF9B2, 1, 0, 0, 1⟩, ⟨0xF9D1, 1, 6, 0, 1⟩,
  ⟨0xF9D3, 1, 6, 0, 1⟩, ⟨0xF9FD, 1, 10, 0, 1⟩, ⟨0xFF10, 10, 0, 1, 1⟩, ⟨0x10107, 10, 1, 1, 1⟩,
  ⟨0x10111, 9, 20, 10, 1⟩, ⟨0x1011A, 9, 200, 100, 1⟩, ⟨0x10123, 9, 2000, 1000, 1⟩, ⟨0x1012C, 8, 20000, 10000, 1⟩,
  ⟨0x10140, 1, 1, 0, 4⟩, ⟨0x10141, 1, 1, 0, 2⟩, ⟨0x10142, 2, 1, 4, 1⟩, ⟨0x10144, 2, 50, 450, 1⟩,
  ⟨0x10146, 2, 5000, 45000, 1⟩, ⟨0x10148, 2, 5, 5, 1⟩, ⟨0x1014A, 2, 50, 50, 1⟩, ⟨0x1014C, 2, 500, 500, 1⟩,
  ⟨0x1014E, 2, 5000, -4995, 1⟩, ⟨0x10150, 2, 10, 40, 1⟩, ⟨0x10152, 2, 100, 400, 1⟩, ⟨0x10154, 2, 1000, 9000, 1⟩,
  ⟨0x10156, 2, 50000, -49990, 1⟩, ⟨0x10158, 3, 1, 0, 1⟩, ⟨0x1015B, 4, 2, 0, 1⟩, ⟨0x1015F, 2, 5, 5, 1⟩,
  ⟨0x10161, 4, 10, 0, 1⟩, ⟨0x10165, 2, 30, 20, 1⟩, ⟨0x10167, 3, 50, 0, 1⟩, ⟨0x1016A, 3, 100, 200, 1⟩,
  ⟨0x1016D, 4, 500, 0, 1⟩, ⟨0x10171, 2, 1000, 4000, 1⟩, ⟨0x10173, 2, 5, 45, 1⟩, ⟨0x10175, 2, 1, 0, 2⟩,
  ⟨0x10177, 1, 2, 0, 3⟩, ⟨0x10178, 1, 3, 0, 4⟩, ⟨0x1018A, 1, 0, 0, 1⟩, ⟨0x1018B, 1, 1, 0, 4⟩, ⟨0x102E1, 10, 1, 1, 1⟩,
  ⟨0x102EB, 9, 20, 10, 1⟩, ⟨0x102F4, 8, 200, 100, 1⟩, ⟨0x10320, 2, 1, 4, 1⟩, ⟨0x10322, 2, 10, 40, 1⟩,
  ⟨0x10341, 1, 90, 0, 1⟩, ⟨0x1034A, 1, 900, 0, 1⟩, ⟨0x103D1, 2, 1, 1, 1⟩, ⟨0x103D3, 2, 10, 10, 1⟩,
  ⟨0x103D5, 1, 100, 0, 1⟩, ⟨0x104A0, 10, 0, 1, 1⟩, ⟨0x10858, 3, 1, 1, 1⟩, ⟨0x1085B, 2, 10, 10, 1⟩,
  ⟨0x1085D, 2, 100, 900, 1⟩, ⟨0x1085F, 1, 10000, 0, 1⟩, ⟨0x10879, 5, 1, 1, 1⟩, ⟨0x1087E, 2, 10, 10, 1⟩,
  ⟨0x108A7, 4, 1, 1, 1⟩, ⟨0x108AB, 2, 4, 1, 1⟩, ⟨0x108AD, 2, 10, 10, 1⟩, ⟨0x108AF, 1, 100, 0, 1⟩,
  ⟨0x108FB, 2, 1, 4, 1⟩, ⟨0x108FD, 2, 10, 10, 1⟩, ⟨0x108FF, 1, 100, 0, 1⟩, ⟨0x10916, 2, 1, 9, 1⟩,
  ⟨0x10918, 2, 20, 80, 1⟩, ⟨0x1091A, 2, 2, 1, 1⟩, ⟨0x109BC, 1, 11, 0, 12⟩, ⟨0x109BD, 1, 1, 0, 2⟩,
  ⟨0x109C0, 10, 1, 1, 1⟩, ⟨0x109CA, 6, 20, 10, 1⟩, ⟨0x109D2, 10, 100, 100, 1⟩, ⟨0x109DC, 9, 2000, 1000, 1⟩,
  ⟨0x109E5, 9, 20000, 10000, 1⟩, ⟨0x109EE, 8, 200000, 100000, 1⟩, ⟨0x109F6, 1, 1, 0, 12⟩, ⟨0x109F7, 1, 1, 0, 6⟩,
  ⟨0x109F8, 1, 1, 0, 4⟩, ⟨0x109F9, 1, 1, 0, 3⟩, ⟨0x109FA, 1, 5, 0, 12⟩, ⟨0x109FB, 1, 1, 0, 2⟩,
  ⟨0x109FC, 1, 7, 0, 12⟩, ⟨0x109FD, 1, 2, 0, 3⟩, ⟨0x109FE, 1, 3, 0, 4⟩, ⟨0x109FF, 1, 5, 0, 6⟩, ⟨0x10A40, 4, 1, 1, 1⟩,
  ⟨0x10A44, 2, 10, 10, 1⟩, ⟨0x10A46, 2, 100, 900, 1⟩, ⟨0x10A48, 1, 1, 0, 2⟩, ⟨0x10A7D, 2, 1, 49, 1⟩,
  ⟨0x10A9D, 2, 1, 9, 1⟩, ⟨0x10A9F, 1, 20, 0, 1⟩, ⟨0x10AEB, 2, 1, 4, 1⟩, ⟨0x10AED, 2, 10, 10, 1⟩,
  ⟨0x10AEF, 1, 100, 0, 1⟩, ⟨0x10B58, 4, 1, 1, 1⟩, ⟨0x10B5C, 2, 10, 10, 1⟩, ⟨0x10B5E, 2, 100, 900, 1⟩,
  ⟨0x10B78, 4, 1, 1, 1⟩, ⟨0x10B7C, 2, 10, 10, 1⟩, ⟨0x10B7E, 2, 100, 900, 1⟩, ⟨0x10BA9, 4, 1, 1, 1⟩,
  ⟨0x10BAD, 2, 10, 10, 1⟩, ⟨0x10BAF, 1, 100, 0, 1⟩, ⟨0x10CFA, 2, 1, 4, 1⟩, ⟨0x10CFC, 2, 10, 40, 1⟩,
  ⟨0x10CFE, 2, 100, 900, 1⟩, ⟨0x10D30, 10, 0, 1, 1⟩, ⟨0x10E60, 10, 1, 1, 1⟩, ⟨0x10E6A, 9, 20, 10, 1⟩,
  ⟨0x10E73, 8, 200, 100, 1⟩, ⟨0x10E7B, 1, 1, 0, 2⟩, ⟨0x10E7C, 1, 1, 0, 4⟩, ⟨0x10E7D, 2, 1, 1, 3⟩,
  ⟨0x10F1D, 5, 1, 1, 1⟩, ⟨0x10F22, 3, 10, 10, 1⟩, ⟨0x10F25, 1, 100, 0, 1⟩, ⟨0x10F26, 1, 1, 0, 2⟩,
  ⟨0x10F51, 2, 1, 9, 1⟩, ⟨0x10F53, 2, 20, 80, 1⟩, ⟨0x10FC5, 4, 1, 1, 1⟩, ⟨0x10FC9, 2, 10, 10, 1⟩,
  ⟨0x10FCB, 1, 100, 0, 1⟩, ⟨0x11052, 10, 1, 1, 1⟩, ⟨0x1105C, 9, 20, 10, 1⟩, ⟨0x11065, 2, 1000, -1000, 1⟩,
  ⟨0x11067, 9, 1, 1, 1⟩, ⟨0x110F0, 10, 0, 1, 1⟩, ⟨0x11136, 10, 0, 1, 1⟩, ⟨0x111D0, 10, 0, 1, 1⟩,
  ⟨0x111E1, 10, 1, 1, 1⟩, ⟨0x111EB, 9, 20, 10, 1⟩, ⟨0x111F4, 1, 1000, 0, 1⟩, ⟨0x112F0, 10, 0, 1, 1⟩,
  ⟨0x11450, 10, 0, 1, 1⟩, ⟨0x114D0, 10, 0, 1, 1⟩, ⟨0x11650, 10, 0, 1, 1⟩, ⟨0x116C0, 10, 0, 1, 1⟩,
  ⟨0x11730, 11, 0, 1, 1⟩, ⟨0x1173B, 1, 20, 0, 1⟩, ⟨0x118E0, 11, 0, 1, 1⟩, ⟨0x118EB, 8, 20, 10, 1⟩,
  ⟨0x11950, 10, 0, 1, 1⟩, ⟨0x11C50, 10, 0, 1, 1⟩, ⟨0x11C5A, 10, 1, 1, 1⟩, ⟨0x11C64, 9, 20, 10, 1⟩,
  ⟨0x11D50, 10, 0, 1, 1⟩, ⟨0x11DA0, 10, 0, 1, 1⟩, ⟨0x11FC0, 1, 1, 0, 320⟩, ⟨0x11FC1, 1, 1, 0, 160⟩,
  ⟨0x11FC2, 1, 1, 0, 80⟩, ⟨0x11FC3, 1, 1, 0, 64⟩, ⟨0x11FC4, 1, 1, 0, 40⟩, ⟨0x11FC5, 1, 1, 0, 32⟩,
  ⟨0x11FC6, 1, 3, 0, 80⟩, ⟨0x11FC7, 1, 3, 0, 64⟩, ⟨0x11FC8, 1, 1, 0, 20⟩, ⟨0x11FC9, 2, 1, 0, 16⟩,
  ⟨0x11FCB, 1, 1, 0, 10⟩, ⟨0x11FCC, 1, 1, 0, 8⟩, ⟨0x11FCD, 1, 3, 0, 20⟩, ⟨0x11FCE, 1, 3, 0, 16⟩,
  ⟨0x11FCF, 1, 1, 0, 5⟩, ⟨0x11FD0, 1, 1, 0, 4⟩, ⟨0x11FD1, 2, 1, 0, 2⟩, ⟨0x11FD3, 1, 3, 0, 4⟩,
  ⟨0x11FD4, 1, 1, 0, 320⟩, ⟨0x12400, 8, 2, 1, 1⟩, ⟨0x12408, 7, 3, 1, 1⟩, ⟨0x1240F, 6, 4, 1, 1⟩,
  ⟨0x12415, 9, 1, 1, 1⟩, ⟨0x1241E, 5, 1, 1, 1⟩, ⟨0x12423, 2, 2, 1, 1⟩, ⟨0x12425, 7, 3, 1, 1⟩, ⟨0x1242C, 3, 1, 1, 1⟩,
  ⟨0x1242F, 3, 3, 1, 1⟩, ⟨0x12432, 2, 216000, 216000, 1⟩, ⟨0x12434, 3, 1, 1, 1⟩, ⟨0x12437, 3, 3, 1, 1⟩,
  ⟨0x1243A, 2, 3, 0, 1⟩, ⟨0x1243C, 4, 4, 0, 1⟩, ⟨0x12440, 2, 6, 1, 1⟩, ⟨0x12442, 2, 7, 0, 1⟩, ⟨0x12444, 2, 8, 0, 1⟩,
  ⟨0x12446, 4, 9, 0, 1⟩, ⟨0x1244A, 5, 2, 1, 1⟩, ⟨0x1244F, 4, 1, 1, 1⟩, ⟨0x12453, 2, 4, 1, 1⟩, ⟨0x12455, 2, 5, -3, 1⟩,
  ⟨0x12457, 2, 3, -2, 1⟩, ⟨0x12459, 1, 2, 0, 1⟩, ⟨0x1245A, 2, 1, 1, 3⟩, ⟨0x1245C, 1, 5, 0, 6⟩, ⟨0x1245D, 2, 1, 1, 3⟩,
  ⟨0x1245F, 1, 1, 0, 8⟩, ⟨0x12460, 1, 1, 0, 4⟩, ⟨0x12461, 1, 1, 0, 6⟩, ⟨0x12462, 2, 1, 0, 4⟩, ⟨0x12464, 1, 1, 0, 2⟩,
  ⟨0x12465, 2, 1, 1, 3⟩, ⟨0x12467, 2, 40, 10, 1⟩, ⟨0x12469, 6, 4, 1, 1⟩, ⟨0x16A60, 10, 0, 1, 1⟩,
  ⟨0x16AC0, 10, 0, 1, 1⟩, ⟨0x16B50, 10, 0, 1, 1⟩, ⟨0x16B5B, 2, 10, 90, 1⟩, ⟨0x16B5D, 2, 10000, 990000, 1⟩,
  ⟨0x16B5F, 2, 100000000, 9900000000, 1⟩, ⟨0x16B61, 1, 1000000000000, 0, 1⟩, ⟨0x16E80, 20, 0, 1, 1⟩,
  ⟨0x16E94, 3, 1, 1, 1⟩, ⟨0x1D2E0, 20, 0, 1, 1⟩, ⟨0x1D360, 10, 1, 1, 1⟩, ⟨0x1D36A, 8, 20, 10, 1⟩,
  ⟨0x1D372, 5, 1, 1, 1⟩, ⟨0x1D377, 2, 1, 4, 1⟩, ⟨0x1D7CE, 10, 0, 1, 1⟩, ⟨0x1D7D8, 10, 0, 1, 1⟩,
  ⟨0x1D7E2, 10, 0, 1, 1⟩, ⟨0x1D7EC, 10, 0, 1, 1⟩, ⟨0x1D7F6, 10, 0, 1, 1⟩, ⟨0x1E140, 10, 0, 1, 1⟩,
  ⟨0x1E2F0, 10, 0, 1, 1⟩, ⟨0x1E8C7, 9, 1, 1, 1⟩, ⟨0x1E950, 10, 0, 1, 1⟩, ⟨0x1EC71, 10, 1, 1, 1⟩,
  ⟨0x1EC7B, 9, 20, 10, 1⟩, ⟨0x1EC84, 9, 200, 100, 1⟩, ⟨0x1EC8D, 9, 2000, 1000, 1⟩, ⟨0x1EC96, 9, 20000, 10000, 1⟩,
  ⟨0x1EC9F, 2, 200000, -100000, 1⟩, ⟨0x1ECA1, 2, 10000000, 10000000, 1⟩, ⟨0x1ECA3, 9, 1, 1, 1⟩,
  ⟨0x1ECAD, 1, 1, 0, 4⟩, ⟨0x1ECAE, 1, 1, 0, 2⟩, ⟨0x1ECAF, 1, 3, 0, 4⟩, ⟨0x1ECB1, 2, 1, 1, 1⟩,
  ⟨0x1ECB3, 2, 10000, 90000, 1⟩, ⟨0x1ED01, 10, 1, 1, 1⟩, ⟨0x1ED0B, 9, 20, 10, 1⟩, ⟨0x1ED14, 9, 200, 100, 1⟩,
  ⟨0x1ED1D, 9, 2000, 1000, 1⟩, ⟨0x1ED26, 8, 20000, 10000, 1⟩, ⟨0x1ED2F, 9, 2, 1, 1⟩, ⟨0x1ED38, 2, 400, 200, 1⟩,
  ⟨0x1ED3A, 2, 2000, 8000, 1⟩, ⟨0x1ED3C, 1, 1, 0, 2⟩, ⟨0x1ED3D, 1, 1, 0, 6⟩, ⟨0x1F100, 2, 0, 0, 1⟩,
  ⟨0x1F102, 9, 1, 1, 1⟩, ⟨0x1F10B, 2, 0, 0, 1⟩, ⟨0x1FBF0, 10, 0, 1, 1⟩, ⟨0x20001, 1, 7, 0, 1⟩, ⟨0x20064, 1, 4, 0, 1⟩,
  ⟨0x200E2, 1, 4, 0, 1⟩, ⟨0x20121, 1, 5, 0, 1⟩, ⟨0x2092A, 1, 1, 0, 1⟩, ⟨0x20983, 1, 30, 0, 1⟩,
  ⟨0x2098C, 1, 40, 0, 1⟩, ⟨0x2099C, 1, 40, 0, 1⟩, ⟨0x20AEA, 1, 6, 0, 1⟩, ⟨0x20AFD, 1, 3, 0, 1⟩,
  ⟨0x20B19, 1, 3, 0, 1⟩, ⟨0x22390, 1, 2, 0, 1⟩, ⟨0x22998, 1, 3, 0, 1⟩, ⟨0x23B1B, 1, 3, 0, 1⟩, ⟨0x2626D, 1, 4, 0, 1⟩,
  ⟨0x2F890, 1, 9, 0, 1⟩]

/-- `c` has the numeric value `n / d`. -/
def HasValue (c : Nat) (n : Int) (d : Nat) : Prop :=
  ∃ r ∈ numericRuns, r.first ≤ c ∧ c < r.first + r.count ∧ n = r.num + r.step * ((c - r.first : Nat) : Int) ∧ d = r.den

/-- The digit seven, three quarters, and the Tibetan half zero, whose value is `-1/2`. -/
example : HasValue 0x37 7 1 ∧ HasValue 0xBE 3 4 ∧ HasValue 0xF33 (-1) 2 :=
  ⟨⟨⟨0x30, 10, 0, 1, 1⟩, by simp [numericRuns], by decide⟩, ⟨⟨0xBE, 1, 3, 0, 4⟩, by simp [numericRuns], by decide⟩,
    ⟨⟨0xF33, 1, -1, 0, 2⟩, by simp [numericRuns], by decide⟩⟩

end Ctre.Unicode14
