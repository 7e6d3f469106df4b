import Verif.Lemmas.Assemble
import Verif.Lemmas.Biff
import Verif.Lemmas.BiffApi
import Verif.Lemmas.BiffNext
import Verif.Lemmas.Bytes
import Verif.Lemmas.Cfb
import Verif.Lemmas.Color
import Verif.Lemmas.Curve
import Verif.Lemmas.Derived
import Verif.Lemmas.Enums
import Verif.Lemmas.ExpandSample
import Verif.Lemmas.ExpandSampleItems
import Verif.Lemmas.ExpandSampleTable
import Verif.Lemmas.Expanded
import Verif.Lemmas.ExpandedFs
import Verif.Lemmas.ExpandedGuard
import Verif.Lemmas.ExpandedItems
import Verif.Lemmas.ExpandedJson
import Verif.Lemmas.ExpandedMesh
import Verif.Lemmas.ExpandedNames
import Verif.Lemmas.ExpandedRead
import Verif.Lemmas.ExpandedTasks
import Verif.Lemmas.Extrude
import Verif.Lemmas.Fields
import Verif.Lemmas.FileOps
import Verif.Lemmas.Flip
import Verif.Lemmas.FlipRange
import Verif.Lemmas.FlipperMesh
import Verif.Lemmas.FloatRound
import Verif.Lemmas.Folder
import Verif.Lemmas.GameData
import Verif.Lemmas.GameDataBase
import Verif.Lemmas.GameDataSkip
import Verif.Lemmas.GameItem
import Verif.Lemmas.GameItemJson
import Verif.Lemmas.Gltf
import Verif.Lemmas.GltfBounds
import Verif.Lemmas.GltfData
import Verif.Lemmas.GltfGroups
import Verif.Lemmas.GltfInside
import Verif.Lemmas.GltfJson
import Verif.Lemmas.GltfMaterials
import Verif.Lemmas.GltfNodes
import Verif.Lemmas.GltfOwned
import Verif.Lemmas.GltfParts
import Verif.Lemmas.GltfSample
import Verif.Lemmas.GltfScene
import Verif.Lemmas.GltfSound
import Verif.Lemmas.GltfTree
import Verif.Lemmas.GltfValid
import Verif.Lemmas.Hex
import Verif.Lemmas.Image
import Verif.Lemmas.Inv
import Verif.Lemmas.ItemData
import Verif.Lemmas.ItemJson
import Verif.Lemmas.ItemMesh
import Verif.Lemmas.ItemStock
import Verif.Lemmas.ItemWrite
import Verif.Lemmas.Items.Ball
import Verif.Lemmas.Items.Bumper
import Verif.Lemmas.Items.Decal
import Verif.Lemmas.Items.DragPoint
import Verif.Lemmas.Items.Flasher
import Verif.Lemmas.Items.Flipper
import Verif.Lemmas.Items.Gate
import Verif.Lemmas.Items.HitTarget
import Verif.Lemmas.Items.Kicker
import Verif.Lemmas.Items.Light
import Verif.Lemmas.Items.LightSequencer
import Verif.Lemmas.Items.PartGroup
import Verif.Lemmas.Items.Plunger
import Verif.Lemmas.Items.Primitive
import Verif.Lemmas.Items.Ramp
import Verif.Lemmas.Items.Reel
import Verif.Lemmas.Items.Rubber
import Verif.Lemmas.Items.Spinner
import Verif.Lemmas.Items.TextBox
import Verif.Lemmas.Items.Timer
import Verif.Lemmas.Items.Trigger
import Verif.Lemmas.Items.Wall
import Verif.Lemmas.JsonCodec
import Verif.Lemmas.JsonEnums
import Verif.Lemmas.JsonSample
import Verif.Lemmas.Mac
import Verif.Lemmas.MacFrame
import Verif.Lemmas.Mesh
import Verif.Lemmas.MeshList
import Verif.Lemmas.MeshTables
import Verif.Lemmas.Near
import Verif.Lemmas.NearFull
import Verif.Lemmas.NearMatrix
import Verif.Lemmas.NearPair
import Verif.Lemmas.NearPoint
import Verif.Lemmas.NearPrimitive
import Verif.Lemmas.NearUnit
import Verif.Lemmas.Obj
import Verif.Lemmas.PartGroup
import Verif.Lemmas.PlungerMesh
import Verif.Lemmas.Polygon
import Verif.Lemmas.PrimitiveAnim
import Verif.Lemmas.PrimitiveReread
import Verif.Lemmas.Prism
import Verif.Lemmas.Quantize
import Verif.Lemmas.QuantizeMono
import Verif.Lemmas.RampMesh
import Verif.Lemmas.Records
import Verif.Lemmas.Res
import Verif.Lemmas.Rounding
import Verif.Lemmas.RubberMesh
import Verif.Lemmas.Scene
import Verif.Lemmas.SceneExport
import Verif.Lemmas.SceneInside
import Verif.Lemmas.SceneMaterials
import Verif.Lemmas.Skip
import Verif.Lemmas.Sound
import Verif.Lemmas.Strip
import Verif.Lemmas.Structs
import Verif.Lemmas.Surface
import Verif.Lemmas.TableInfo
import Verif.Lemmas.TableJson
import Verif.Lemmas.Tame
import Verif.Lemmas.Text
import Verif.Lemmas.Torus
import Verif.Lemmas.Triangulate
import Verif.Lemmas.Vpx
import Verif.Lemmas.VpxMac
import Verif.Lemmas.VpxRead
import Verif.Lemmas.VpxWrite
import Verif.Lemmas.WallMesh
import Verif.Lemmas.Wasm
import Verif.Lemmas.Wav
import Verif.Lemmas.Webp
import Verif.Model.Arith
import Verif.Model.Biff
import Verif.Model.BiffApi
import Verif.Model.BiffPen
import Verif.Model.BuiltinMesh
import Verif.Model.Bytes
import Verif.Model.Camera
import Verif.Model.Cfb
import Verif.Model.Collection
import Verif.Model.Color
import Verif.Model.Common
import Verif.Model.Compact
import Verif.Model.Compat
import Verif.Model.Curve
import Verif.Model.Derived
import Verif.Model.Enums
import Verif.Model.Expanded
import Verif.Model.ExpandedJson
import Verif.Model.FileNames
import Verif.Model.FlatMesh
import Verif.Model.FlipperMesh
import Verif.Model.Float
import Verif.Model.FloatText
import Verif.Model.Folder
import Verif.Model.FontData
import Verif.Model.GameData
import Verif.Model.GameItem
import Verif.Model.GameItemJson
import Verif.Model.Gltf
import Verif.Model.GltfCollect
import Verif.Model.GltfDoc
import Verif.Model.Handle
import Verif.Model.Hex
import Verif.Model.Image
import Verif.Model.ItemJson
import Verif.Model.ItemMesh
import Verif.Model.Items.Ball
import Verif.Model.Items.Bumper
import Verif.Model.Items.Decal
import Verif.Model.Items.DragPoint
import Verif.Model.Items.Flasher
import Verif.Model.Items.Flipper
import Verif.Model.Items.Gate
import Verif.Model.Items.HitTarget
import Verif.Model.Items.Kicker
import Verif.Model.Items.Light
import Verif.Model.Items.LightSequencer
import Verif.Model.Items.PartGroup
import Verif.Model.Items.Plunger
import Verif.Model.Items.Primitive
import Verif.Model.Items.Ramp
import Verif.Model.Items.Reel
import Verif.Model.Items.Rubber
import Verif.Model.Items.Spinner
import Verif.Model.Items.TextBox
import Verif.Model.Items.Timer
import Verif.Model.Items.Trigger
import Verif.Model.Items.Wall
import Verif.Model.Json
import Verif.Model.JsonCodec
import Verif.Model.Material
import Verif.Model.Matrix
import Verif.Model.MemFs
import Verif.Model.Mesh
import Verif.Model.MeshData.Balls
import Verif.Model.MeshData.Bumpers
import Verif.Model.MeshData.Flippers
import Verif.Model.MeshData.Gates
import Verif.Model.MeshData.Hittargets
import Verif.Model.MeshData.Kickers
import Verif.Model.MeshData.Lights
import Verif.Model.MeshData.Spinners
import Verif.Model.MeshData.Triggers
import Verif.Model.MeshNumbers
import Verif.Model.MeshPack
import Verif.Model.Obj
import Verif.Model.ObjExport
import Verif.Model.Outline
import Verif.Model.Pixels
import Verif.Model.PlungerMesh
import Verif.Model.Polygon
import Verif.Model.Quantize
import Verif.Model.RampMesh
import Verif.Model.RenderProbe
import Verif.Model.RubberMesh
import Verif.Model.Sound
import Verif.Model.TableInfo
import Verif.Model.TableJson
import Verif.Model.TableMesh
import Verif.Model.Text
import Verif.Model.Version
import Verif.Model.Vpx
import Verif.Model.WallMesh
import Verif.Model.Wasm
import Verif.Model.Wav
import Verif.Model.Webp
import Verif.Props.Accessors
import Verif.Props.BiffApi
import Verif.Props.BiffPen
import Verif.Props.BiffView
import Verif.Props.Camera
import Verif.Props.Collapse
import Verif.Props.Color
import Verif.Props.ColorText
import Verif.Props.Compact
import Verif.Props.Compat
import Verif.Props.Curve
import Verif.Props.Derived
import Verif.Props.DerivedExamples
import Verif.Props.DerivedRead
import Verif.Props.Enums
import Verif.Props.Expanded
import Verif.Props.ExpandedExamples
import Verif.Props.ExpandedFiles
import Verif.Props.ExpandedImages
import Verif.Props.FileNames
import Verif.Props.FileNamesOf
import Verif.Props.FileOps
import Verif.Props.FileTable
import Verif.Props.FlatShape
import Verif.Props.FlipRange
import Verif.Props.FlipperShape
import Verif.Props.Folder
import Verif.Props.FontData
import Verif.Props.FontOrder
import Verif.Props.Framing
import Verif.Props.GameData
import Verif.Props.Gltf
import Verif.Props.GltfContainer
import Verif.Props.GltfGroups
import Verif.Props.GltfItems
import Verif.Props.GltfLights
import Verif.Props.GltfMaterials
import Verif.Props.GltfNames
import Verif.Props.GltfOpacity
import Verif.Props.GltfPlayfield
import Verif.Props.GltfScene
import Verif.Props.GltfShapes
import Verif.Props.GltfTextures
import Verif.Props.Handle
import Verif.Props.Image
import Verif.Props.ItemJson
import Verif.Props.ItemMesh
import Verif.Props.ItemShapes
import Verif.Props.Items
import Verif.Props.Layout
import Verif.Props.MemFs
import Verif.Props.Mesh
import Verif.Props.MeshExamples
import Verif.Props.MeshNumbers
import Verif.Props.Obj
import Verif.Props.ObjExport
import Verif.Props.Outline
import Verif.Props.Pixels
import Verif.Props.Placement
import Verif.Props.PlayfieldShape
import Verif.Props.PlungerShape
import Verif.Props.Polygon
import Verif.Props.Primitives
import Verif.Props.Prism
import Verif.Props.Quantize
import Verif.Props.QuantizeSave
import Verif.Props.RampHeight
import Verif.Props.RampMesh
import Verif.Props.RealMesh
import Verif.Props.RealNormals
import Verif.Props.RealPrism
import Verif.Props.RealRamp
import Verif.Props.RealShapes
import Verif.Props.Rounding
import Verif.Props.RoundingFlat
import Verif.Props.RoundingFlipper
import Verif.Props.RoundingLathe
import Verif.Props.RoundingParts
import Verif.Props.RoundingPlunger
import Verif.Props.RoundingTables
import Verif.Props.RoundingWires
import Verif.Props.RubberMesh
import Verif.Props.SceneDetail
import Verif.Props.SceneItems
import Verif.Props.Sound
import Verif.Props.SoundFiles
import Verif.Props.Spline
import Verif.Props.Structs
import Verif.Props.TableInfo
import Verif.Props.Termination
import Verif.Props.Text
import Verif.Props.Triangulate
import Verif.Props.Units
import Verif.Props.Unknown
import Verif.Props.Version
import Verif.Props.Visible
import Verif.Props.Vpx
import Verif.Props.VpxEdit
import Verif.Props.WallMesh
import Verif.Props.Wasm
import Verif.Props.WasmExamples
import Verif.Props.Webp
import Verif.Spec.BiffApi
import Verif.Spec.BiffPen
import Verif.Spec.Camera
import Verif.Spec.ColorText
import Verif.Spec.Common
import Verif.Spec.Compact
import Verif.Spec.Compat
import Verif.Spec.Curve
import Verif.Spec.Derived
import Verif.Spec.Expanded
import Verif.Spec.ExpandedJson
import Verif.Spec.FileNames
import Verif.Spec.FileOps
import Verif.Spec.FlatShape
import Verif.Spec.Folder
import Verif.Spec.FontData
import Verif.Spec.GameData
import Verif.Spec.GameItem
import Verif.Spec.GameItemJson
import Verif.Spec.Glb
import Verif.Spec.GltfFile
import Verif.Spec.GltfGroups
import Verif.Spec.GltfItems
import Verif.Spec.GltfLights
import Verif.Spec.GltfMaterials
import Verif.Spec.GltfOpacity
import Verif.Spec.GltfParts
import Verif.Spec.GltfShapes
import Verif.Spec.Handle
import Verif.Spec.Image
import Verif.Spec.ItemJson
import Verif.Spec.ItemShapes
import Verif.Spec.Items
import Verif.Spec.Json
import Verif.Spec.MemFs
import Verif.Spec.Mesh
import Verif.Spec.Obj
import Verif.Spec.Outline
import Verif.Spec.Placement
import Verif.Spec.PlayfieldShape
import Verif.Spec.PlungerShape
import Verif.Spec.Prism
import Verif.Spec.Ramp
import Verif.Spec.Reach
import Verif.Spec.RealMesh
import Verif.Spec.Records
import Verif.Spec.Rounding
import Verif.Spec.RoundingFlat
import Verif.Spec.RoundingFlipper
import Verif.Spec.RoundingLathe
import Verif.Spec.Scene
import Verif.Spec.SceneDetail
import Verif.Spec.SceneItems
import Verif.Spec.SceneMaterials
import Verif.Spec.Schedule
import Verif.Spec.Sound
import Verif.Spec.Spline
import Verif.Spec.Structs
import Verif.Spec.Surface
import Verif.Spec.TableInfo
import Verif.Spec.TableJson
import Verif.Spec.Text
import Verif.Spec.Tube
import Verif.Spec.Units
import Verif.Spec.Vpx
import Verif.Spec.Wall
import Verif.Spec.Wasm
import Verif.Spec.Wav
import Verif.Spec.Webp
