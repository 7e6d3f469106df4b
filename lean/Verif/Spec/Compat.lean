import Verif.Model.Compat
/-
Which tables and which items the rules of VPinball 10.8 for older tables are about
(/repo/src/vpx/compat.rs:23-47), in words of their own.
-/
namespace Vpin

/-- saved before 10.8 -/
def Old (v : Version) : Prop := v.number.toNat ≤ 1079

/-- lower case letters of the name are those of `playfield_mesh` -/
def NamedPlayfield (p : Primitive) : Prop := p.name.map asciiLower = "playfield_mesh".toList

/-- 1.0 and 100000.0 -/
def isOne (x : F32) : Prop := x.toNat = 127 * 2 ^ 23
def isHundredThousand (x : F32) : Prop := x.toNat = (127 + 16) * 2 ^ 23 + (100000 * 2 ^ 7 - 2 ^ 23)

end Vpin
