import Verif.Model.Json
/-
Enumerations stored as numbers in the file and as names in JSON.
Generated by tools/gen_enums.py from the sources; each definition cites what it models.
-/
namespace Vpin

/-- `enum DecalType`, /repo/src/vpx/gameitem/decal.rs:14-17 -/
inductive DecalType where
  | Text
  | Image
  deriving DecidableEq, Repr

/-- `From<&DecalType> for u32`, /repo/src/vpx/gameitem/decal.rs:27-34 -/
def DecalType.toU32 : DecalType → UInt32
  | .Text => 0
  | .Image => 1

/-- `From<u32> for DecalType`, /repo/src/vpx/gameitem/decal.rs:36-44 -/
def DecalType.ofU32 (n : UInt32) : Res DecalType :=
  if n = 0 then .ok .Text
  else if n = 1 then .ok .Image
  else .error .panic

/-- `Serialize for DecalType`, /repo/src/vpx/gameitem/decal.rs:47-58 -/
def DecalType.toJ : DecalType → J
  | .Text => .str "text".toList
  | .Image => .str "image".toList

/-- `Deserialize for DecalType`, /repo/src/vpx/gameitem/decal.rs:62-91 -/
def DecalType.ofJ : J → Res DecalType
  | .str s =>
    if s = "text".toList then .ok .Text
    else if s = "image".toList then .ok .Image
    else .error .io
  | .num n =>
    if n = 0 then .ok .Text
    else if n = 1 then .ok .Image
    else .error .io
  | _ => .error .io

/-- `enum SizingType`, /repo/src/vpx/gameitem/decal.rs:21-25 -/
inductive SizingType where
  | AutoSize
  | AutoWidth
  | ManualSize
  deriving DecidableEq, Repr

/-- `From<&SizingType> for u32`, /repo/src/vpx/gameitem/decal.rs:93-101 -/
def SizingType.toU32 : SizingType → UInt32
  | .AutoSize => 0
  | .AutoWidth => 1
  | .ManualSize => 2

/-- `From<u32> for SizingType`, /repo/src/vpx/gameitem/decal.rs:103-112 -/
def SizingType.ofU32 (n : UInt32) : Res SizingType :=
  if n = 0 then .ok .AutoSize
  else if n = 1 then .ok .AutoWidth
  else if n = 2 then .ok .ManualSize
  else .error .panic

/-- `Serialize for SizingType`, /repo/src/vpx/gameitem/decal.rs:115-127 -/
def SizingType.toJ : SizingType → J
  | .AutoSize => .str "auto_size".toList
  | .AutoWidth => .str "auto_width".toList
  | .ManualSize => .str "manual_size".toList

/-- `Deserialize for SizingType`, /repo/src/vpx/gameitem/decal.rs:131-162 -/
def SizingType.ofJ : J → Res SizingType
  | .str s =>
    if s = "auto_size".toList then .ok .AutoSize
    else if s = "auto_width".toList then .ok .AutoWidth
    else if s = "manual_size".toList then .ok .ManualSize
    else .error .io
  | .num n =>
    if n = 0 then .ok .AutoSize
    else if n = 1 then .ok .AutoWidth
    else if n = 2 then .ok .ManualSize
    else .error .io
  | _ => .error .io

/-- `enum Filter`, /repo/src/vpx/gameitem/flasher.rs:20-32 -/
inductive Filter where
  | None
  | Additive
  | Overlay
  | Multiply
  | Screen
  deriving DecidableEq, Repr

/-- `From<&Filter> for u32`, /repo/src/vpx/gameitem/flasher.rs:47-57 -/
def Filter.toU32 : Filter → UInt32
  | .None => 0
  | .Additive => 1
  | .Overlay => 2
  | .Multiply => 3
  | .Screen => 4

/-- `From<u32> for Filter`, /repo/src/vpx/gameitem/flasher.rs:34-45 -/
def Filter.ofU32 (n : UInt32) : Res Filter :=
  if n = 0 then .ok .None
  else if n = 1 then .ok .Additive
  else if n = 2 then .ok .Overlay
  else if n = 3 then .ok .Multiply
  else if n = 4 then .ok .Screen
  else .error .panic

/-- `Serialize for Filter`, /repo/src/vpx/gameitem/flasher.rs:60-74 -/
def Filter.toJ : Filter → J
  | .None => .str "none".toList
  | .Additive => .str "additive".toList
  | .Overlay => .str "overlay".toList
  | .Multiply => .str "multiply".toList
  | .Screen => .str "screen".toList

/-- `Deserialize for Filter`, /repo/src/vpx/gameitem/flasher.rs:78-113 -/
def Filter.ofJ : J → Res Filter
  | .str s =>
    if s = "none".toList then .ok .None
    else if s = "additive".toList then .ok .Additive
    else if s = "overlay".toList then .ok .Overlay
    else if s = "multiply".toList then .ok .Multiply
    else if s = "screen".toList then .ok .Screen
    else .error .io
  | .num n =>
    if n = 0 then .ok .None
    else if n = 1 then .ok .Additive
    else if n = 2 then .ok .Overlay
    else if n = 3 then .ok .Multiply
    else if n = 4 then .ok .Screen
    else .error .io
  | _ => .error .io

/-- `enum RenderMode`, /repo/src/vpx/gameitem/flasher.rs:126-138 -/
inductive RenderMode where
  | Flasher
  | DMD
  | Display
  | AlphaSeg
  | ExtRender
  deriving DecidableEq, Repr

/-- `From<&RenderMode> for u32`, /repo/src/vpx/gameitem/flasher.rs:153-163 -/
def RenderMode.toU32 : RenderMode → UInt32
  | .Flasher => 0
  | .DMD => 1
  | .Display => 2
  | .AlphaSeg => 3
  | .ExtRender => 4

/-- `From<u32> for RenderMode`, /repo/src/vpx/gameitem/flasher.rs:140-151 -/
def RenderMode.ofU32 (n : UInt32) : Res RenderMode :=
  if n = 0 then .ok .Flasher
  else if n = 1 then .ok .DMD
  else if n = 2 then .ok .Display
  else if n = 3 then .ok .AlphaSeg
  else if n = 4 then .ok .ExtRender
  else .error .panic

/-- `Serialize for RenderMode`, /repo/src/vpx/gameitem/flasher.rs:165-179 -/
def RenderMode.toJ : RenderMode → J
  | .Flasher => .str "flasher".toList
  | .DMD => .str "dmd".toList
  | .Display => .str "display".toList
  | .AlphaSeg => .str "alpha_seg".toList
  | .ExtRender => .str "ext_render".toList

/-- `Deserialize for RenderMode`, /repo/src/vpx/gameitem/flasher.rs:181-216 -/
def RenderMode.ofJ : J → Res RenderMode
  | .str s =>
    if s = "flasher".toList then .ok .Flasher
    else if s = "dmd".toList then .ok .DMD
    else if s = "display".toList then .ok .Display
    else if s = "alpha_seg".toList then .ok .AlphaSeg
    else if s = "ext_render".toList then .ok .ExtRender
    else .error .io
  | .num n =>
    if n = 0 then .ok .Flasher
    else if n = 1 then .ok .DMD
    else if n = 2 then .ok .Display
    else if n = 3 then .ok .AlphaSeg
    else if n = 4 then .ok .ExtRender
    else .error .io
  | _ => .error .io

/-- `enum DmdStyle`, /repo/src/vpx/gameitem/flasher.rs:223-234 -/
inductive DmdStyle where
  | Legacy
  | Plasma
  | RedLED
  | GreenLED
  | YellowLED
  | GenericPlasma
  | GenericLED
  deriving DecidableEq, Repr

/-- `From<&DmdStyle> for u32`, /repo/src/vpx/gameitem/flasher.rs:251-255 -/
def DmdStyle.toU32 : DmdStyle → UInt32
  | .Legacy => 0
  | .Plasma => 1
  | .RedLED => 2
  | .GreenLED => 3
  | .YellowLED => 4
  | .GenericPlasma => 5
  | .GenericLED => 6

/-- `From<u32> for DmdStyle`, /repo/src/vpx/gameitem/flasher.rs:236-249 -/
def DmdStyle.ofU32 (n : UInt32) : Res DmdStyle :=
  if n = 0 then .ok .Legacy
  else if n = 1 then .ok .Plasma
  else if n = 2 then .ok .RedLED
  else if n = 3 then .ok .GreenLED
  else if n = 4 then .ok .YellowLED
  else if n = 5 then .ok .GenericPlasma
  else if n = 6 then .ok .GenericLED
  else .error .panic

/-- `enum DisplayStyle`, /repo/src/vpx/gameitem/flasher.rs:262-267 -/
inductive DisplayStyle where
  | Pixelated
  | Smoothed
  | CRT
  deriving DecidableEq, Repr

/-- `From<&DisplayStyle> for u32`, /repo/src/vpx/gameitem/flasher.rs:280-284 -/
def DisplayStyle.toU32 : DisplayStyle → UInt32
  | .Pixelated => 0
  | .Smoothed => 1
  | .CRT => 2

/-- `From<u32> for DisplayStyle`, /repo/src/vpx/gameitem/flasher.rs:269-278 -/
def DisplayStyle.ofU32 (n : UInt32) : Res DisplayStyle :=
  if n = 0 then .ok .Pixelated
  else if n = 1 then .ok .Smoothed
  else if n = 2 then .ok .CRT
  else .error .panic

/-- `enum SegStyle`, /repo/src/vpx/gameitem/flasher.rs:292-305 -/
inductive SegStyle where
  | Plasma
  | BlueVFD
  | GreenVFD
  | RedLED
  | GreenLED
  | YellowLED
  | GenericPlasma
  | GenericLED
  deriving DecidableEq, Repr

/-- `From<&SegStyle> for u32`, /repo/src/vpx/gameitem/flasher.rs:323-327 -/
def SegStyle.toU32 : SegStyle → UInt32
  | .Plasma => 0
  | .BlueVFD => 1
  | .GreenVFD => 2
  | .RedLED => 3
  | .GreenLED => 4
  | .YellowLED => 5
  | .GenericPlasma => 6
  | .GenericLED => 7

/-- `From<u32> for SegStyle`, /repo/src/vpx/gameitem/flasher.rs:307-321 -/
def SegStyle.ofU32 (n : UInt32) : Res SegStyle :=
  if n = 0 then .ok .Plasma
  else if n = 1 then .ok .BlueVFD
  else if n = 2 then .ok .GreenVFD
  else if n = 3 then .ok .RedLED
  else if n = 4 then .ok .GreenLED
  else if n = 5 then .ok .YellowLED
  else if n = 6 then .ok .GenericPlasma
  else if n = 7 then .ok .GenericLED
  else .error .panic

/-- `enum SegFamily`, /repo/src/vpx/gameitem/flasher.rs:335-342 -/
inductive SegFamily where
  | Generic
  | Gottlieb
  | Williams
  | Bally
  | Atari
  deriving DecidableEq, Repr

/-- `From<&SegFamily> for u32`, /repo/src/vpx/gameitem/flasher.rs:357-361 -/
def SegFamily.toU32 : SegFamily → UInt32
  | .Generic => 0
  | .Gottlieb => 1
  | .Williams => 2
  | .Bally => 3
  | .Atari => 4

/-- `From<u32> for SegFamily`, /repo/src/vpx/gameitem/flasher.rs:344-355 -/
def SegFamily.ofU32 (n : UInt32) : Res SegFamily :=
  if n = 0 then .ok .Generic
  else if n = 1 then .ok .Gottlieb
  else if n = 2 then .ok .Williams
  else if n = 3 then .ok .Bally
  else if n = 4 then .ok .Atari
  else .error .panic

/-- `enum RampType`, /repo/src/vpx/gameitem/ramp.rs:11-18 -/
inductive RampType where
  | Flat
  | FourWire
  | TwoWire
  | ThreeWireLeft
  | ThreeWireRight
  | OneWire
  deriving DecidableEq, Repr

/-- `From<&RampType> for u32`, /repo/src/vpx/gameitem/ramp.rs:34-45 -/
def RampType.toU32 : RampType → UInt32
  | .Flat => 0
  | .FourWire => 1
  | .TwoWire => 2
  | .ThreeWireLeft => 3
  | .ThreeWireRight => 4
  | .OneWire => 5

/-- `From<u32> for RampType`, /repo/src/vpx/gameitem/ramp.rs:20-32 -/
def RampType.ofU32 (n : UInt32) : Res RampType :=
  if n = 0 then .ok .Flat
  else if n = 1 then .ok .FourWire
  else if n = 2 then .ok .TwoWire
  else if n = 3 then .ok .ThreeWireLeft
  else if n = 4 then .ok .ThreeWireRight
  else if n = 5 then .ok .OneWire
  else .error .panic

/-- `Serialize for RampType`, /repo/src/vpx/gameitem/ramp.rs:48-62 -/
def RampType.toJ : RampType → J
  | .Flat => .str "flat".toList
  | .FourWire => .str "four_wire".toList
  | .TwoWire => .str "two_wire".toList
  | .ThreeWireLeft => .str "three_wire_left".toList
  | .ThreeWireRight => .str "three_wire_right".toList
  | .OneWire => .str "one_wire".toList

/-- `Deserialize for RampType`, /repo/src/vpx/gameitem/ramp.rs:66-126 -/
def RampType.ofJ : J → Res RampType
  | .str s =>
    if s = "flat".toList then .ok .Flat
    else if s = "four_wire".toList then .ok .FourWire
    else if s = "two_wire".toList then .ok .TwoWire
    else if s = "three_wire_left".toList then .ok .ThreeWireLeft
    else if s = "three_wire_right".toList then .ok .ThreeWireRight
    else if s = "one_wire".toList then .ok .OneWire
    else .error .io
  | .num n =>
    if n = 0 then .ok .Flat
    else if n = 1 then .ok .FourWire
    else if n = 2 then .ok .TwoWire
    else if n = 3 then .ok .ThreeWireLeft
    else if n = 4 then .ok .ThreeWireRight
    else if n = 5 then .ok .OneWire
    else .error .io
  | _ => .error .io

/-- `enum VisibilityMask`, /repo/src/vpx/gameitem/partgroup.rs:10-19 -/
inductive VisibilityMask where
  | Playfield
  | Scoreview
  | Backglass
  | Topper
  | ApronLeft
  | ApronRight
  | MixedReality
  | VirtualReality
  deriving DecidableEq, Repr

/-- `From<&VisibilityMask> for u32`, /repo/src/vpx/gameitem/partgroup.rs:37-50 -/
def VisibilityMask.toU32 : VisibilityMask → UInt32
  | .Playfield => 1
  | .Scoreview => 2
  | .Backglass => 4
  | .Topper => 8
  | .ApronLeft => 0x10
  | .ApronRight => 0x20
  | .MixedReality => 0x40
  | .VirtualReality => 0x80

/-- `From<u32> for VisibilityMask`, /repo/src/vpx/gameitem/partgroup.rs:21-35 -/
def VisibilityMask.ofU32 (n : UInt32) : Res VisibilityMask :=
  if n = 1 then .ok .Playfield
  else if n = 2 then .ok .Scoreview
  else if n = 4 then .ok .Backglass
  else if n = 8 then .ok .Topper
  else if n = 0x10 then .ok .ApronLeft
  else if n = 0x20 then .ok .ApronRight
  else if n = 0x40 then .ok .MixedReality
  else if n = 0x80 then .ok .VirtualReality
  else .error .panic

/-- `enum SpaceReference`, /repo/src/vpx/gameitem/partgroup.rs:54-65 -/
inductive SpaceReference where
  | Inherit
  | Room
  | CabinetFeet
  | Cabinet
  | Playfield
  deriving DecidableEq, Repr

/-- `From<&SpaceReference> for u32`, /repo/src/vpx/gameitem/partgroup.rs:80-90 -/
def SpaceReference.toU32 : SpaceReference → UInt32
  | .Inherit => 4
  | .Room => 3
  | .CabinetFeet => 2
  | .Cabinet => 1
  | .Playfield => 0

/-- `From<u32> for SpaceReference`, /repo/src/vpx/gameitem/partgroup.rs:67-78 -/
def SpaceReference.ofU32 (n : UInt32) : Res SpaceReference :=
  if n = 0 then .ok .Playfield
  else if n = 1 then .ok .Cabinet
  else if n = 2 then .ok .CabinetFeet
  else if n = 3 then .ok .Room
  else if n = 4 then .ok .Inherit
  else .error .panic

/-- `Serialize for SpaceReference`, /repo/src/vpx/gameitem/partgroup.rs:92-106 -/
def SpaceReference.toJ : SpaceReference → J
  | .Inherit => .str "inherit".toList
  | .Room => .str "room".toList
  | .CabinetFeet => .str "cabinet_feet".toList
  | .Cabinet => .str "cabinet".toList
  | .Playfield => .str "playfield".toList

/-- `Deserialize for SpaceReference`, /repo/src/vpx/gameitem/partgroup.rs:108-125 -/
def SpaceReference.ofJ : J → Res SpaceReference
  | .str s =>
    if s = "inherit".toList then .ok .Inherit
    else if s = "room".toList then .ok .Room
    else if s = "cabinet_feet".toList then .ok .CabinetFeet
    else if s = "cabinet".toList then .ok .Cabinet
    else if s = "playfield".toList then .ok .Playfield
    else .error .io
  | _ => .error .io

/-- `enum KickerType`, /repo/src/vpx/gameitem/kicker.rs:10-18 -/
inductive KickerType where
  | Invisible
  | Hole
  | Cup
  | HoleSimple
  | Williams
  | Gottlieb
  | Cup2
  deriving DecidableEq, Repr

/-- `From<&KickerType> for u32`, /repo/src/vpx/gameitem/kicker.rs:35-47 -/
def KickerType.toU32 : KickerType → UInt32
  | .Invisible => 0
  | .Hole => 1
  | .Cup => 2
  | .HoleSimple => 3
  | .Williams => 4
  | .Gottlieb => 5
  | .Cup2 => 6

/-- `From<u32> for KickerType`, /repo/src/vpx/gameitem/kicker.rs:20-33 -/
def KickerType.ofU32 (n : UInt32) : Res KickerType :=
  if n = 0 then .ok .Invisible
  else if n = 1 then .ok .Hole
  else if n = 2 then .ok .Cup
  else if n = 3 then .ok .HoleSimple
  else if n = 4 then .ok .Williams
  else if n = 5 then .ok .Gottlieb
  else if n = 6 then .ok .Cup2
  else .error .panic

/-- `Serialize for KickerType`, /repo/src/vpx/gameitem/kicker.rs:50-66 -/
def KickerType.toJ : KickerType → J
  | .Invisible => .str "invisible".toList
  | .Hole => .str "hole".toList
  | .Cup => .str "cup".toList
  | .HoleSimple => .str "hole_simple".toList
  | .Williams => .str "williams".toList
  | .Gottlieb => .str "gottlieb".toList
  | .Cup2 => .str "cup2".toList

/-- `Deserialize for KickerType`, /repo/src/vpx/gameitem/kicker.rs:70-133 -/
def KickerType.ofJ : J → Res KickerType
  | .str s =>
    if s = "invisible".toList then .ok .Invisible
    else if s = "hole".toList then .ok .Hole
    else if s = "cup".toList then .ok .Cup
    else if s = "hole_simple".toList then .ok .HoleSimple
    else if s = "williams".toList then .ok .Williams
    else if s = "gottlieb".toList then .ok .Gottlieb
    else if s = "cup2".toList then .ok .Cup2
    else .error .io
  | .num n =>
    if n = 0 then .ok .Invisible
    else if n = 1 then .ok .Hole
    else if n = 2 then .ok .Cup
    else if n = 3 then .ok .HoleSimple
    else if n = 4 then .ok .Williams
    else if n = 5 then .ok .Gottlieb
    else if n = 6 then .ok .Cup2
    else .error .io
  | _ => .error .io

/-- `enum TargetType`, /repo/src/vpx/gameitem/hittarget.rs:11-21 -/
inductive TargetType where
  | DropTargetBeveled
  | DropTargetSimple
  | HitTargetRound
  | HitTargetRectangle
  | HitFatTargetRectangle
  | HitFatTargetSquare
  | DropTargetFlatSimple
  | HitFatTargetSlim
  | HitTargetSlim
  deriving DecidableEq, Repr

/-- `From<&TargetType> for u32`, /repo/src/vpx/gameitem/hittarget.rs:40-54 -/
def TargetType.toU32 : TargetType → UInt32
  | .DropTargetBeveled => 1
  | .DropTargetSimple => 2
  | .HitTargetRound => 3
  | .HitTargetRectangle => 4
  | .HitFatTargetRectangle => 5
  | .HitFatTargetSquare => 6
  | .DropTargetFlatSimple => 7
  | .HitFatTargetSlim => 8
  | .HitTargetSlim => 9

/-- `From<u32> for TargetType`, /repo/src/vpx/gameitem/hittarget.rs:23-38 -/
def TargetType.ofU32 (n : UInt32) : Res TargetType :=
  if n = 1 then .ok .DropTargetBeveled
  else if n = 2 then .ok .DropTargetSimple
  else if n = 3 then .ok .HitTargetRound
  else if n = 4 then .ok .HitTargetRectangle
  else if n = 5 then .ok .HitFatTargetRectangle
  else if n = 6 then .ok .HitFatTargetSquare
  else if n = 7 then .ok .DropTargetFlatSimple
  else if n = 8 then .ok .HitFatTargetSlim
  else if n = 9 then .ok .HitTargetSlim
  else .error .panic

/-- `Serialize for TargetType`, /repo/src/vpx/gameitem/hittarget.rs:57-76 -/
def TargetType.toJ : TargetType → J
  | .DropTargetBeveled => .str "drop_target_beveled".toList
  | .DropTargetSimple => .str "drop_target_simple".toList
  | .HitTargetRound => .str "hit_target_round".toList
  | .HitTargetRectangle => .str "hit_target_rectangle".toList
  | .HitFatTargetRectangle => .str "hit_fat_target_rectangle".toList
  | .HitFatTargetSquare => .str "hit_fat_target_square".toList
  | .DropTargetFlatSimple => .str "drop_target_flat_simple".toList
  | .HitFatTargetSlim => .str "hit_fat_target_slim".toList
  | .HitTargetSlim => .str "hit_target_slim".toList

/-- `Deserialize for TargetType`, /repo/src/vpx/gameitem/hittarget.rs:80-149 -/
def TargetType.ofJ : J → Res TargetType
  | .str s =>
    if s = "drop_target_beveled".toList then .ok .DropTargetBeveled
    else if s = "drop_target_simple".toList then .ok .DropTargetSimple
    else if s = "hit_target_round".toList then .ok .HitTargetRound
    else if s = "hit_target_rectangle".toList then .ok .HitTargetRectangle
    else if s = "hit_fat_target_rectangle".toList then .ok .HitFatTargetRectangle
    else if s = "hit_fat_target_square".toList then .ok .HitFatTargetSquare
    else if s = "drop_target_flat_simple".toList then .ok .DropTargetFlatSimple
    else if s = "hit_fat_target_slim".toList then .ok .HitFatTargetSlim
    else if s = "hit_target_slim".toList then .ok .HitTargetSlim
    else .error .io
  | .num n =>
    if n = 1 then .ok .DropTargetBeveled
    else if n = 2 then .ok .DropTargetSimple
    else if n = 3 then .ok .HitTargetRound
    else if n = 4 then .ok .HitTargetRectangle
    else if n = 5 then .ok .HitFatTargetRectangle
    else if n = 6 then .ok .HitFatTargetSquare
    else if n = 7 then .ok .DropTargetFlatSimple
    else if n = 8 then .ok .HitFatTargetSlim
    else if n = 9 then .ok .HitTargetSlim
    else .error .io
  | _ => .error .io

/-- `enum GateType`, /repo/src/vpx/gameitem/gate.rs:10-28 -/
inductive GateType where
  | WireW
  | WireRectangle
  | Plate
  | LongPlate
  | Unknown (value : UInt32)
  deriving DecidableEq, Repr

/-- `From<&GateType> for u32`, /repo/src/vpx/gameitem/gate.rs:52-62 -/
def GateType.toU32 : GateType → UInt32
  | .WireW => 1
  | .WireRectangle => 2
  | .Plate => 3
  | .LongPlate => 4
  | .Unknown value => value

/-- `From<u32> for GateType`, /repo/src/vpx/gameitem/gate.rs:40-50 -/
def GateType.ofU32 (n : UInt32) : Res GateType :=
  if n = 1 then .ok .WireW
  else if n = 2 then .ok .WireRectangle
  else if n = 3 then .ok .Plate
  else if n = 4 then .ok .LongPlate
  else .ok (.Unknown n)

/-- `Serialize for GateType`, /repo/src/vpx/gameitem/gate.rs:65-78 -/
def GateType.toJ : GateType → J
  | .WireW => .str "wire_w".toList
  | .WireRectangle => .str "wire_rectangle".toList
  | .Plate => .str "plate".toList
  | .LongPlate => .str "long_plate".toList
  | .Unknown value => .num value.toNat

/-- `Deserialize for GateType`, /repo/src/vpx/gameitem/gate.rs:81-127 -/
def GateType.ofJ : J → Res GateType
  | .str s =>
    if s = "wire_w".toList then .ok .WireW
    else if s = "wire_rectangle".toList then .ok .WireRectangle
    else if s = "plate".toList then .ok .Plate
    else if s = "long_plate".toList then .ok .LongPlate
    else .error .io
  | .num n =>
    if 0 ≤ n ∧ n < 2 ^ 32 then GateType.ofU32 (UInt32.ofNat n.toNat) else .error .io
  | _ => .error .io

/-- `enum PlungerType`, /repo/src/vpx/gameitem/plunger.rs:10-17 -/
inductive PlungerType where
  | Unknown
  | Modern
  | Flat
  | Custom
  deriving DecidableEq, Repr

/-- `From<&PlungerType> for u32`, /repo/src/vpx/gameitem/plunger.rs:31-40 -/
def PlungerType.toU32 : PlungerType → UInt32
  | .Unknown => 0
  | .Modern => 1
  | .Flat => 2
  | .Custom => 3

/-- `From<u32> for PlungerType`, /repo/src/vpx/gameitem/plunger.rs:19-29 -/
def PlungerType.ofU32 (n : UInt32) : Res PlungerType :=
  if n = 0 then .ok .Unknown
  else if n = 1 then .ok .Modern
  else if n = 2 then .ok .Flat
  else if n = 3 then .ok .Custom
  else .error .panic

/-- `Serialize for PlungerType`, /repo/src/vpx/gameitem/plunger.rs:43-55 -/
def PlungerType.toJ : PlungerType → J
  | .Unknown => .str "unknown".toList
  | .Modern => .str "modern".toList
  | .Flat => .str "flat".toList
  | .Custom => .str "custom".toList

/-- `Deserialize for PlungerType`, /repo/src/vpx/gameitem/plunger.rs:59-109 -/
def PlungerType.ofJ : J → Res PlungerType
  | .str s =>
    if s = "unknown".toList then .ok .Unknown
    else if s = "modern".toList then .ok .Modern
    else if s = "flat".toList then .ok .Flat
    else if s = "custom".toList then .ok .Custom
    else .error .io
  | .num n =>
    if n = 0 then .ok .Unknown
    else if n = 1 then .ok .Modern
    else if n = 2 then .ok .Flat
    else if n = 3 then .ok .Custom
    else .error .io
  | _ => .error .io

/-- `enum TriggerShape`, /repo/src/vpx/gameitem/trigger.rs:11-29 -/
inductive TriggerShape where
  | None
  | WireA
  | Star
  | WireB
  | Button
  | WireC
  | WireD
  | Inder
  deriving DecidableEq, Repr

/-- `From<&TriggerShape> for u32`, /repo/src/vpx/gameitem/trigger.rs:47-60 -/
def TriggerShape.toU32 : TriggerShape → UInt32
  | .None => 0
  | .WireA => 1
  | .Star => 2
  | .WireB => 3
  | .Button => 4
  | .WireC => 5
  | .WireD => 6
  | .Inder => 7

/-- `From<u32> for TriggerShape`, /repo/src/vpx/gameitem/trigger.rs:31-45 -/
def TriggerShape.ofU32 (n : UInt32) : Res TriggerShape :=
  if n = 0 then .ok .None
  else if n = 1 then .ok .WireA
  else if n = 2 then .ok .Star
  else if n = 3 then .ok .WireB
  else if n = 4 then .ok .Button
  else if n = 5 then .ok .WireC
  else if n = 6 then .ok .WireD
  else if n = 7 then .ok .Inder
  else .ok .WireA

/-- `Serialize for TriggerShape`, /repo/src/vpx/gameitem/trigger.rs:63-80 -/
def TriggerShape.toJ : TriggerShape → J
  | .None => .str "none".toList
  | .WireA => .str "wire_a".toList
  | .Star => .str "star".toList
  | .WireB => .str "wire_b".toList
  | .Button => .str "button".toList
  | .WireC => .str "wire_c".toList
  | .WireD => .str "wire_d".toList
  | .Inder => .str "inder".toList

/-- `Deserialize for TriggerShape`, /repo/src/vpx/gameitem/trigger.rs:84-145 -/
def TriggerShape.ofJ : J → Res TriggerShape
  | .str s =>
    if s = "none".toList then .ok .None
    else if s = "wire_a".toList then .ok .WireA
    else if s = "star".toList then .ok .Star
    else if s = "wire_b".toList then .ok .WireB
    else if s = "button".toList then .ok .Button
    else if s = "wire_c".toList then .ok .WireC
    else if s = "wire_d".toList then .ok .WireD
    else if s = "inder".toList then .ok .Inder
    else .error .io
  | .num n =>
    if n = 0 then .ok .None
    else if n = 1 then .ok .WireA
    else if n = 2 then .ok .Star
    else if n = 3 then .ok .WireB
    else if n = 4 then .ok .Button
    else if n = 5 then .ok .WireC
    else if n = 6 then .ok .WireD
    else if n = 7 then .ok .Inder
    else .error .io
  | _ => .error .io

/-- `enum TextAlignment`, /repo/src/vpx/gameitem/textbox.rs:15-20 -/
inductive TextAlignment where
  | Left
  | Center
  | Right
  deriving DecidableEq, Repr

/-- `From<&TextAlignment> for u32`, /repo/src/vpx/gameitem/textbox.rs:33-41 -/
def TextAlignment.toU32 : TextAlignment → UInt32
  | .Left => 0
  | .Center => 1
  | .Right => 2

/-- `From<u32> for TextAlignment`, /repo/src/vpx/gameitem/textbox.rs:22-31 -/
def TextAlignment.ofU32 (n : UInt32) : Res TextAlignment :=
  if n = 0 then .ok .Left
  else if n = 1 then .ok .Center
  else if n = 2 then .ok .Right
  else .error .panic

/-- `Serialize for TextAlignment`, /repo/src/vpx/gameitem/textbox.rs:44-55 -/
def TextAlignment.toJ : TextAlignment → J
  | .Left => .str "left".toList
  | .Center => .str "center".toList
  | .Right => .str "right".toList

/-- `Deserialize for TextAlignment`, /repo/src/vpx/gameitem/textbox.rs:59-106 -/
def TextAlignment.ofJ : J → Res TextAlignment
  | .str s =>
    if s = "left".toList then .ok .Left
    else if s = "center".toList then .ok .Center
    else if s = "right".toList then .ok .Right
    else .error .io
  | .num n =>
    if n = 0 then .ok .Left
    else if n = 1 then .ok .Center
    else if n = 2 then .ok .Right
    else .error .io
  | _ => .error .io

/-- `enum RampImageAlignment`, /repo/src/vpx/gameitem/ramp_image_alignment.rs:5-11 -/
inductive RampImageAlignment where
  | World
  | Wrap
  | Unknown
  deriving DecidableEq, Repr

/-- `From<&RampImageAlignment> for u32`, /repo/src/vpx/gameitem/ramp_image_alignment.rs:24-32 -/
def RampImageAlignment.toU32 : RampImageAlignment → UInt32
  | .World => 0
  | .Wrap => 1
  | .Unknown => 2

/-- `From<u32> for RampImageAlignment`, /repo/src/vpx/gameitem/ramp_image_alignment.rs:13-22 -/
def RampImageAlignment.ofU32 (n : UInt32) : Res RampImageAlignment :=
  if n = 0 then .ok .World
  else if n = 1 then .ok .Wrap
  else if n = 2 then .ok .Unknown
  else .error .panic

/-- `Serialize for RampImageAlignment`, /repo/src/vpx/gameitem/ramp_image_alignment.rs:35-46 -/
def RampImageAlignment.toJ : RampImageAlignment → J
  | .World => .str "world".toList
  | .Wrap => .str "wrap".toList
  | .Unknown => .str "unknown".toList

/-- `Deserialize for RampImageAlignment`, /repo/src/vpx/gameitem/ramp_image_alignment.rs:50-94 -/
def RampImageAlignment.ofJ : J → Res RampImageAlignment
  | .str s =>
    if s = "world".toList then .ok .World
    else if s = "wrap".toList then .ok .Wrap
    else if s = "unknown".toList then .ok .Unknown
    else .error .io
  | .num n =>
    if n = 0 then .ok .World
    else if n = 1 then .ok .Wrap
    else if n = 2 then .ok .Unknown
    else .error .io
  | _ => .error .io

/-- `enum ShadowMode`, /repo/src/vpx/gameitem/light.rs:90-96 -/
inductive ShadowMode where
  | None
  | RaytracedBallShadows
  deriving DecidableEq, Repr

/-- `From<&ShadowMode> for u32`, /repo/src/vpx/gameitem/light.rs:108-115 -/
def ShadowMode.toU32 : ShadowMode → UInt32
  | .None => 0
  | .RaytracedBallShadows => 1

/-- `From<u32> for ShadowMode`, /repo/src/vpx/gameitem/light.rs:98-106 -/
def ShadowMode.ofU32 (n : UInt32) : Res ShadowMode :=
  if n = 0 then .ok .None
  else if n = 1 then .ok .RaytracedBallShadows
  else .error .panic

/-- `Serialize for ShadowMode`, /repo/src/vpx/gameitem/light.rs:118-129 -/
def ShadowMode.toJ : ShadowMode → J
  | .None => .str "none".toList
  | .RaytracedBallShadows => .str "raytraced_ball_shadows".toList

/-- `Deserialize for ShadowMode`, /repo/src/vpx/gameitem/light.rs:133-178 -/
def ShadowMode.ofJ : J → Res ShadowMode
  | .str s =>
    if s = "none".toList then .ok .None
    else if s = "raytraced_ball_shadows".toList then .ok .RaytracedBallShadows
    else .error .io
  | .num n =>
    if n = 0 then .ok .None
    else if n = 1 then .ok .RaytracedBallShadows
    else .error .io
  | _ => .error .io

/-- `enum Fader`, /repo/src/vpx/gameitem/light.rs:185-206 -/
inductive Fader where
  | None
  | Linear
  | Incandescent
  deriving DecidableEq, Repr

/-- `From<&Fader> for u32`, /repo/src/vpx/gameitem/light.rs:219-227 -/
def Fader.toU32 : Fader → UInt32
  | .None => 0
  | .Linear => 1
  | .Incandescent => 2

/-- `From<u32> for Fader`, /repo/src/vpx/gameitem/light.rs:208-217 -/
def Fader.ofU32 (n : UInt32) : Res Fader :=
  if n = 0 then .ok .None
  else if n = 1 then .ok .Linear
  else if n = 2 then .ok .Incandescent
  else .error .panic

/-- `Serialize for Fader`, /repo/src/vpx/gameitem/light.rs:230-242 -/
def Fader.toJ : Fader → J
  | .None => .str "none".toList
  | .Linear => .str "linear".toList
  | .Incandescent => .str "incandescent".toList

/-- `Deserialize for Fader`, /repo/src/vpx/gameitem/light.rs:246-293 -/
def Fader.ofJ : J → Res Fader
  | .str s =>
    if s = "none".toList then .ok .None
    else if s = "linear".toList then .ok .Linear
    else if s = "incandescent".toList then .ok .Incandescent
    else .error .io
  | .num n =>
    if n = 0 then .ok .None
    else if n = 1 then .ok .Linear
    else if n = 2 then .ok .Incandescent
    else .error .io
  | _ => .error .io

/-- `enum ViewLayoutMode`, /repo/src/vpx/gamedata.rs:59-66 -/
inductive ViewLayoutMode where
  | Legacy
  | Camera
  | Window
  deriving DecidableEq, Repr

/-- `From<&ViewLayoutMode> for u32`, /repo/src/vpx/gamedata.rs:79-87 -/
def ViewLayoutMode.toU32 : ViewLayoutMode → UInt32
  | .Legacy => 0
  | .Camera => 1
  | .Window => 2

/-- `From<u32> for ViewLayoutMode`, /repo/src/vpx/gamedata.rs:68-77 -/
def ViewLayoutMode.ofU32 (n : UInt32) : Res ViewLayoutMode :=
  if n = 0 then .ok .Legacy
  else if n = 1 then .ok .Camera
  else if n = 2 then .ok .Window
  else .error .panic

/-- `Serialize for ViewLayoutMode`, /repo/src/vpx/gamedata.rs:90-101 -/
def ViewLayoutMode.toJ : ViewLayoutMode → J
  | .Legacy => .str "legacy".toList
  | .Camera => .str "camera".toList
  | .Window => .str "window".toList

/-- `Deserialize for ViewLayoutMode`, /repo/src/vpx/gamedata.rs:105-152 -/
def ViewLayoutMode.ofJ : J → Res ViewLayoutMode
  | .str s =>
    if s = "legacy".toList then .ok .Legacy
    else if s = "camera".toList then .ok .Camera
    else if s = "window".toList then .ok .Window
    else .error .io
  | .num n =>
    if n = 0 then .ok .Legacy
    else if n = 1 then .ok .Camera
    else if n = 2 then .ok .Window
    else .error .io
  | _ => .error .io

/-- `enum ToneMapper`, /repo/src/vpx/gamedata.rs:205-217 -/
inductive ToneMapper where
  | Reinhard
  | AgX
  | Filmic
  | Neutral
  | AgXPunchy
  | Other (value : UInt32)
  deriving DecidableEq, Repr

/-- `From<&ToneMapper> for u32`, /repo/src/vpx/gamedata.rs:232-243 -/
def ToneMapper.toU32 : ToneMapper → UInt32
  | .Reinhard => 0
  | .AgX => 1
  | .Filmic => 2
  | .Neutral => 3
  | .AgXPunchy => 4
  | .Other value => value

/-- `From<u32> for ToneMapper`, /repo/src/vpx/gamedata.rs:219-230 -/
def ToneMapper.ofU32 (n : UInt32) : Res ToneMapper :=
  if n = 0 then .ok .Reinhard
  else if n = 1 then .ok .AgX
  else if n = 2 then .ok .Filmic
  else if n = 3 then .ok .Neutral
  else if n = 4 then .ok .AgXPunchy
  else .ok (.Other n)

/-- `Serialize for ToneMapper`, /repo/src/vpx/gamedata.rs:246-260 -/
def ToneMapper.toJ : ToneMapper → J
  | .Reinhard => .str "reinhard".toList
  | .AgX => .str "agx".toList
  | .Filmic => .str "filmic".toList
  | .Neutral => .str "neutral".toList
  | .AgXPunchy => .str "agx_punchy".toList
  | .Other value => .num value.toNat

/-- `Deserialize for ToneMapper`, /repo/src/vpx/gamedata.rs:264-315 -/
def ToneMapper.ofJ : J → Res ToneMapper
  | .str s =>
    if s = "reinhard".toList then .ok .Reinhard
    else if s = "agx".toList then .ok .AgX
    else if s = "filmic".toList then .ok .Filmic
    else if s = "neutral".toList then .ok .Neutral
    else if s = "agx_punchy".toList then .ok .AgXPunchy
    else if s = "tony_mc_mapface".toList then .ok .AgX
    else .error .io
  | .num n =>
    if 0 ≤ n ∧ n < 2 ^ 32 then ToneMapper.ofU32 (UInt32.ofNat n.toNat) else .error .io
  | _ => .error .io

/-- `enum MaterialType`, /repo/src/vpx/material.rs:17-21 -/
inductive MaterialType where
  | Unknown
  | Basic
  | Metal
  deriving DecidableEq, Repr

/-- `From<&MaterialType> for i32`, /repo/src/vpx/material.rs:34-42 -/
def MaterialType.toI32 : MaterialType → Int32
  | .Unknown => (-1)
  | .Basic => 0
  | .Metal => 1

/-- `From<i32> for MaterialType`, /repo/src/vpx/material.rs:23-32 -/
def MaterialType.ofI32 (n : Int32) : Res MaterialType :=
  if n = (-1) then .ok .Unknown
  else if n = 0 then .ok .Basic
  else if n = 1 then .ok .Metal
  else .error .panic

/-- `Serialize for MaterialType`, /repo/src/vpx/material.rs:45-56 -/
def MaterialType.toJ : MaterialType → J
  | .Unknown => .str "unknown".toList
  | .Basic => .str "basic".toList
  | .Metal => .str "metal".toList

/-- `Deserialize for MaterialType`, /repo/src/vpx/material.rs:60-92 -/
def MaterialType.ofJ : J → Res MaterialType
  -- `to_lowercase` is modelled for ASCII letters
  | .str s0 =>
    let s := s0.map Char.toLower
    if s = "unknown".toList then .ok .Unknown
    else if s = "basic".toList then .ok .Basic
    else if s = "metal".toList then .ok .Metal
    else .error .io
  | _ => .error .io

/-- `enum RenderProbeType`, /repo/src/vpx/renderprobe.rs:8-11 -/
inductive RenderProbeType where
  | PlaneReflection
  | ScreenSpaceTransparency
  deriving DecidableEq, Repr

/-- `From<&RenderProbeType> for u32`, /repo/src/vpx/renderprobe.rs:23-30 -/
def RenderProbeType.toU32 : RenderProbeType → UInt32
  | .PlaneReflection => 0
  | .ScreenSpaceTransparency => 1

/-- `From<u32> for RenderProbeType`, /repo/src/vpx/renderprobe.rs:13-21 -/
def RenderProbeType.ofU32 (n : UInt32) : Res RenderProbeType :=
  if n = 0 then .ok .PlaneReflection
  else if n = 1 then .ok .ScreenSpaceTransparency
  else .error .panic

/-- `Serialize for RenderProbeType`, /repo/src/vpx/renderprobe.rs:80-91 -/
def RenderProbeType.toJ : RenderProbeType → J
  | .PlaneReflection => .str "plane_reflection".toList
  | .ScreenSpaceTransparency => .str "screen_space_transparency".toList

/-- `Deserialize for RenderProbeType`, /repo/src/vpx/renderprobe.rs:33-76 -/
def RenderProbeType.ofJ : J → Res RenderProbeType
  | .str s =>
    if s = "plane_reflection".toList then .ok .PlaneReflection
    else if s = "screen_space_transparency".toList then .ok .ScreenSpaceTransparency
    else .error .io
  | .num n =>
    if n = 0 then .ok .PlaneReflection
    else if n = 1 then .ok .ScreenSpaceTransparency
    else .error .io
  | _ => .error .io

/-- `enum ReflectionMode`, /repo/src/vpx/renderprobe.rs:95-110 -/
inductive ReflectionMode where
  | None
  | Balls
  | Static
  | StaticNBalls
  | StaticNDynamic
  | Dynamic
  | Unknown
  deriving DecidableEq, Repr

/-- `From<&ReflectionMode> for u32`, /repo/src/vpx/renderprobe.rs:127-139 -/
def ReflectionMode.toU32 : ReflectionMode → UInt32
  | .None => 0
  | .Balls => 1
  | .Static => 2
  | .StaticNBalls => 3
  | .StaticNDynamic => 4
  | .Dynamic => 5
  | .Unknown => 6

/-- `From<u32> for ReflectionMode`, /repo/src/vpx/renderprobe.rs:112-125 -/
def ReflectionMode.ofU32 (n : UInt32) : Res ReflectionMode :=
  if n = 0 then .ok .None
  else if n = 1 then .ok .Balls
  else if n = 2 then .ok .Static
  else if n = 3 then .ok .StaticNBalls
  else if n = 4 then .ok .StaticNDynamic
  else if n = 5 then .ok .Dynamic
  else if n = 6 then .ok .Unknown
  else .error .panic

/-- `Serialize for ReflectionMode`, /repo/src/vpx/renderprobe.rs:142-158 -/
def ReflectionMode.toJ : ReflectionMode → J
  | .None => .str "none".toList
  | .Balls => .str "balls".toList
  | .Static => .str "static".toList
  | .StaticNBalls => .str "static_and_balls".toList
  | .StaticNDynamic => .str "static_and_dynamic".toList
  | .Dynamic => .str "dynamic".toList
  | .Unknown => .str "unknown".toList

/-- `Deserialize for ReflectionMode`, /repo/src/vpx/renderprobe.rs:162-223 -/
def ReflectionMode.ofJ : J → Res ReflectionMode
  | .str s =>
    if s = "none".toList then .ok .None
    else if s = "balls".toList then .ok .Balls
    else if s = "static".toList then .ok .Static
    else if s = "static_and_balls".toList then .ok .StaticNBalls
    else if s = "static_and_dynamic".toList then .ok .StaticNDynamic
    else if s = "dynamic".toList then .ok .Dynamic
    else if s = "unknown".toList then .ok .Unknown
    else .error .io
  | .num n =>
    if n = 0 then .ok .None
    else if n = 1 then .ok .Balls
    else if n = 2 then .ok .Static
    else if n = 3 then .ok .StaticNBalls
    else if n = 4 then .ok .StaticNDynamic
    else if n = 5 then .ok .Dynamic
    else if n = 6 then .ok .Unknown
    else .error .io
  | _ => .error .io

end Vpin
