import Mathlib.Data.Rat.Defs

/-!
# What the structure view is painted with

The styles (`src/ui/qt/structure_view/structure_style.hpp`, `src/ui/qt/style.cpp`), the pens and brushes made of them
(`src/ui/qt/structure_view/structure_style.cpp`), and how the items choose among these. A pen is its colour, its width and whether it is
dashed; caps and joins are left out. Of a style only the part of the structure view is modelled.
-/

namespace Verif.Paint

/-- `QColor`, as used in `src/ui/qt/structure_view/structure_style.hpp:26-149` and in
`src/ui/qt/structure_view/structure_polygon.cpp:90-91`. -/
structure Color where
  r : Nat
  g : Nat
  b : Nat
  a : Nat
  deriving DecidableEq, Repr

namespace Color

/-- `Qt::white` (`src/ui/qt/structure_view/structure_style.hpp:26`). -/
def white : Color := ⟨255, 255, 255, 255⟩
/-- `Qt::black` (`src/ui/qt/structure_view/structure_style.hpp:56`). -/
def black : Color := ⟨0, 0, 0, 255⟩
/-- `Qt::red` (`src/ui/qt/structure_view/structure_style.hpp:35`). -/
def red : Color := ⟨255, 0, 0, 255⟩
/-- `Qt::green` (`src/ui/qt/structure_view/structure_style.hpp:46`). -/
def green : Color := ⟨0, 255, 0, 255⟩
/-- `Qt::cyan` (`src/ui/qt/structure_view/structure_style.hpp:61`). -/
def cyan : Color := ⟨0, 255, 255, 255⟩
/-- `Qt::yellow` (`src/ui/qt/structure_view/structure_style.hpp:71`). -/
def yellow : Color := ⟨255, 255, 0, 255⟩
/-- `Qt::magenta` (`src/ui/qt/style.cpp:294`). -/
def magenta : Color := ⟨255, 0, 255, 255⟩
/-- `Qt::darkGreen` (`src/ui/qt/structure_view/structure_style.hpp:91`). -/
def darkGreen : Color := ⟨0, 128, 0, 255⟩
/-- `Qt::darkYellow` (`src/ui/qt/style.cpp:307`). -/
def darkYellow : Color := ⟨128, 128, 0, 255⟩
/-- `Qt::transparent` (`src/ui/qt/structure_view/structure_style.hpp:34`). -/
def transparent : Color := ⟨0, 0, 0, 0⟩
/-- `openems_blue` (`src/ui/qt/style.hpp:19`). -/
def openemsBlue : Color := ⟨48, 64, 144, 255⟩

end Color

/-- `StructureStyle` (`src/ui/qt/structure_view/structure_style.hpp:25-150`), each member with its default. -/
structure StructureStyle where
  background : Color := .white
  edgeWidthRegular : ℚ := 0
  edgeWidthSelected : ℚ := edgeWidthRegular
  edgeWidthRegularHovered : ℚ := edgeWidthRegular * 2
  edgeWidthSelectedHovered : ℚ := edgeWidthSelected * 2
  edgeRegular : Color := .transparent
  edgeSelected : Color := .red
  edgeRegularHovered : Color := edgeRegular
  edgeSelectedHovered : Color := edgeSelected
  angleCircleRegular : Color := .transparent
  angleCircleSelected : Color := .red
  angleCircleRegularHovered : Color := angleCircleRegular
  angleCircleSelectedHovered : Color := angleCircleSelected
  angleCrossLineEnabledRegular : Color := .transparent
  angleCrossLineEnabledSelected : Color := .green
  angleCrossLineEnabledRegularHovered : Color := angleCrossLineEnabledRegular
  angleCrossLineEnabledSelectedHovered : Color := angleCrossLineEnabledSelected
  angleCrossLineDisabledRegular : Color := .transparent
  angleCrossLineDisabledSelected : Color := .red
  angleCrossLineDisabledRegularHovered : Color := angleCrossLineDisabledRegular
  angleCrossLineDisabledSelectedHovered : Color := angleCrossLineDisabledSelected
  polygonShapeContourRegular : Color := .black
  polygonShapeContourSelected : Color := polygonShapeContourRegular
  polygonShapeContourRegularHovered : Color := polygonShapeContourRegular
  polygonShapeContourSelectedHovered : Color := polygonShapeContourSelected
  polygonShapeFillRegular : Color := .cyan
  polygonShapeFillSelected : Color := polygonShapeFillRegular
  polygonShapeFillRegularHovered : Color := polygonShapeFillRegular
  polygonShapeFillSelectedHovered : Color := polygonShapeFillSelected
  polygonPortContourRegular : Color := .black
  polygonPortContourSelected : Color := polygonPortContourRegular
  polygonPortContourRegularHovered : Color := polygonPortContourRegular
  polygonPortContourSelectedHovered : Color := polygonPortContourSelected
  polygonPortFillRegular : Color := .yellow
  polygonPortFillSelected : Color := polygonPortFillRegular
  polygonPortFillRegularHovered : Color := polygonPortFillRegular
  polygonPortFillSelectedHovered : Color := polygonPortFillSelected
  polygonGroundContourRegular : Color := .black
  polygonGroundContourSelected : Color := polygonGroundContourRegular
  polygonGroundContourRegularHovered : Color := polygonGroundContourRegular
  polygonGroundContourSelectedHovered : Color := polygonGroundContourSelected
  polygonGroundFillRegular : Color := ⟨99, 78, 45, 255⟩
  polygonGroundFillSelected : Color := polygonGroundFillRegular
  polygonGroundFillRegularHovered : Color := polygonGroundFillRegular
  polygonGroundFillSelectedHovered : Color := polygonGroundFillSelected
  polygonSubstrateContourRegular : Color := .black
  polygonSubstrateContourSelected : Color := polygonSubstrateContourRegular
  polygonSubstrateContourRegularHovered : Color := polygonSubstrateContourRegular
  polygonSubstrateContourSelectedHovered : Color := polygonSubstrateContourSelected
  polygonSubstrateFillRegular : Color := .darkGreen
  polygonSubstrateFillSelected : Color := polygonSubstrateFillRegular
  polygonSubstrateFillRegularHovered : Color := polygonSubstrateFillRegular
  polygonSubstrateFillSelectedHovered : Color := polygonSubstrateFillSelected
  meshlineRegular : Color := .black
  meshlineSelected : Color := .red
  meshlineRegularHovered : Color := meshlineRegular
  meshlineSelectedHovered : Color := meshlineSelected
  meshlinePolicyEnabledMainLineRegular : Color := .transparent
  meshlinePolicyEnabledMainLineSelected : Color := .green
  meshlinePolicyEnabledMainLineRegularHovered : Color := meshlinePolicyEnabledMainLineRegular
  meshlinePolicyEnabledMainLineSelectedHovered : Color := meshlinePolicyEnabledMainLineSelected
  meshlinePolicyEnabledPolicyLinesRegular : Color := .transparent
  meshlinePolicyEnabledPolicyLinesSelected : Color := .green
  meshlinePolicyEnabledPolicyLinesRegularHovered : Color := meshlinePolicyEnabledPolicyLinesRegular
  meshlinePolicyEnabledPolicyLinesSelectedHovered : Color := meshlinePolicyEnabledPolicyLinesSelected
  meshlinePolicyDisabledMainLineRegular : Color := .transparent
  meshlinePolicyDisabledMainLineSelected : Color := .red
  meshlinePolicyDisabledMainLineRegularHovered : Color := meshlinePolicyDisabledMainLineRegular
  meshlinePolicyDisabledMainLineSelectedHovered : Color := meshlinePolicyDisabledMainLineSelected
  meshlinePolicyDisabledPolicyLinesRegular : Color := .transparent
  meshlinePolicyDisabledPolicyLinesSelected : Color := .red
  meshlinePolicyDisabledPolicyLinesRegularHovered : Color := meshlinePolicyDisabledPolicyLinesRegular
  meshlinePolicyDisabledPolicyLinesSelectedHovered : Color := meshlinePolicyDisabledPolicyLinesSelected
  intervalRegular : Color := .transparent
  intervalSelected : Color := ⟨0, 255, 0, 100⟩
  intervalRegularHovered : Color := intervalRegular
  intervalSelectedHovered : Color := intervalSelected
  conflictCeRegular : Color := .transparent
  conflictCeSelected : Color := .red
  conflictCeRegularHovered : Color := conflictCeRegular
  conflictCeSelectedHovered : Color := conflictCeSelected
  conflictDoczRegular : Color := .transparent
  conflictDoczSelected : Color := ⟨255, 0, 0, 100⟩
  conflictDoczRegularHovered : Color := conflictCeRegular
  conflictDoczSelectedHovered : Color := conflictCeSelected
  conflictTcmlpSolutionLineRegular : Color := .transparent
  conflictTcmlpSolutionLineSelected : Color := .green
  conflictTcmlpSolutionLineRegularHovered : Color := conflictTcmlpSolutionLineRegular
  conflictTcmlpSolutionLineSelectedHovered : Color := conflictTcmlpSolutionLineSelected
  conflictTcmlpOriginLinesRegular : Color := .transparent
  conflictTcmlpOriginLinesSelected : Color := .red
  conflictTcmlpOriginLinesRegularHovered : Color := conflictTcmlpOriginLinesRegular
  conflictTcmlpOriginLinesSelectedHovered : Color := conflictTcmlpOriginLinesSelected

/-- The part of the style "Main" for the structure view (`src/ui/qt/style.cpp:113-193`). -/
def main : StructureStyle :=
  {
    background := .white
    edgeWidthRegularHovered := 1 / 2
    edgeWidthSelectedHovered := 1 / 2
    edgeRegular := .black
    edgeSelected := .red
    edgeRegularHovered := .red
    polygonShapeFillRegular := .openemsBlue
    polygonShapeFillSelected := .red
    polygonPortFillRegular := .yellow
    polygonPortFillSelected := .red
    polygonGroundFillRegular := ⟨99, 78, 45, 255⟩
    polygonGroundFillSelected := .red
    polygonSubstrateFillRegular := .darkGreen
    polygonSubstrateFillSelected := .red }

/-- The part of the style "2" for the structure view (`src/ui/qt/style.cpp:293-371`). -/
def second : StructureStyle :=
  {
    background := .magenta
    edgeWidthRegularHovered := 1 / 2
    edgeWidthSelectedHovered := 1 / 2
    edgeRegular := .transparent
    edgeSelected := .red
    edgeRegularHovered := .red
    polygonShapeFillRegular := .darkYellow
    polygonShapeFillSelected := .red
    polygonPortFillRegular := .yellow
    polygonPortFillSelected := .red
    polygonGroundFillRegular := ⟨99, 78, 45, 255⟩
    polygonGroundFillSelected := .red
    polygonSubstrateFillRegular := .darkGreen
    polygonSubstrateFillSelected := .red }

/-- `Style::available_styles` (`src/ui/qt/style.cpp:14-373`). -/
def availableStyles : List (String × StructureStyle) := [("Main", main), ("2", second)]

/-- `Style::find_style` (`src/ui/qt/style.cpp:376-385`). -/
def findStyle (name : String) : Option StructureStyle := (availableStyles.find? fun x => x.1 == name).map (·.2)

/-- `QPen` (`src/ui/qt/structure_view/structure_style.cpp:97-315`). -/
structure Pen where
  color : Color
  width : ℚ
  dashed : Bool
  deriving DecidableEq

/-- The four members that a `Params` has for a pen or a brush (`src/ui/qt/structure_view/structure_edge.hpp:27-32` and alike). -/
structure Four (α : Type) where
  regular : α
  selected : α
  regularHovered : α
  selectedHovered : α

/-- `StructureAngle::Params` (`src/ui/qt/structure_view/structure_angle.hpp:28-42`), made in
`src/ui/qt/structure_view/structure_style.cpp:97-166`. -/
structure AngleParams where
  circle : Four Pen
  hLine : Four Pen
  vLine : Four Pen

/-- `StructurePolygon::Params`, made in `src/ui/qt/structure_view/structure_style.cpp:179-232`. -/
structure PolygonParams where
  contour : Four Pen
  fill : Four Color

/-- `StructureMeshlinePolicy::Params`, made in `src/ui/qt/structure_view/structure_style.cpp:245-270`. -/
structure PolicyParams where
  mainLine : Four Pen
  policyLines : Four Pen

/-- `StructureConflictTooCloseMeshlinePolicies::Params`, made in `src/ui/qt/structure_view/structure_style.cpp:303-314`. -/
structure TcmlpParams where
  solutionLine : Four Pen
  originLines : Four Pen

/-- `make_angle_hv_enabled` (`src/ui/qt/structure_view/structure_style.cpp:97-112`). -/
def makeAngleHvEnabled (s : StructureStyle) : AngleParams :=
  { circle :=
      { regular := ⟨s.angleCircleRegular, 1 / 10, false⟩,
        selected := ⟨s.angleCircleSelected, 1 / 10, false⟩,
        regularHovered := ⟨s.angleCircleRegularHovered, 1 / 10, false⟩,
        selectedHovered := ⟨s.angleCircleSelectedHovered, 1 / 10, false⟩ },
    hLine :=
      { regular := ⟨s.angleCrossLineEnabledRegular, 1 / 10, false⟩,
        selected := ⟨s.angleCrossLineEnabledSelected, 1 / 10, false⟩,
        regularHovered := ⟨s.angleCrossLineEnabledRegularHovered, 1 / 10, false⟩,
        selectedHovered := ⟨s.angleCrossLineEnabledSelectedHovered, 1 / 10, false⟩ },
    vLine :=
      { regular := ⟨s.angleCrossLineEnabledRegular, 1 / 10, false⟩,
        selected := ⟨s.angleCrossLineEnabledSelected, 1 / 10, false⟩,
        regularHovered := ⟨s.angleCrossLineEnabledRegularHovered, 1 / 10, false⟩,
        selectedHovered := ⟨s.angleCrossLineEnabledSelectedHovered, 1 / 10, false⟩ } }

/-- `make_angle_h_enabled` (`src/ui/qt/structure_view/structure_style.cpp:115-130`). -/
def makeAngleHEnabled (s : StructureStyle) : AngleParams :=
  { circle :=
      { regular := ⟨s.angleCircleRegular, 1 / 10, false⟩,
        selected := ⟨s.angleCircleSelected, 1 / 10, false⟩,
        regularHovered := ⟨s.angleCircleRegularHovered, 1 / 10, false⟩,
        selectedHovered := ⟨s.angleCircleSelectedHovered, 1 / 10, false⟩ },
    hLine :=
      { regular := ⟨s.angleCrossLineEnabledRegular, 1 / 10, false⟩,
        selected := ⟨s.angleCrossLineEnabledSelected, 1 / 10, false⟩,
        regularHovered := ⟨s.angleCrossLineEnabledRegularHovered, 1 / 10, false⟩,
        selectedHovered := ⟨s.angleCrossLineEnabledSelectedHovered, 1 / 10, false⟩ },
    vLine :=
      { regular := ⟨s.angleCrossLineDisabledRegular, 1 / 10, false⟩,
        selected := ⟨s.angleCrossLineDisabledSelected, 1 / 10, false⟩,
        regularHovered := ⟨s.angleCrossLineDisabledRegularHovered, 1 / 10, false⟩,
        selectedHovered := ⟨s.angleCrossLineDisabledSelectedHovered, 1 / 10, false⟩ } }

/-- `make_angle_v_enabled` (`src/ui/qt/structure_view/structure_style.cpp:133-148`). -/
def makeAngleVEnabled (s : StructureStyle) : AngleParams :=
  { circle :=
      { regular := ⟨s.angleCircleRegular, 1 / 10, false⟩,
        selected := ⟨s.angleCircleSelected, 1 / 10, false⟩,
        regularHovered := ⟨s.angleCircleRegularHovered, 1 / 10, false⟩,
        selectedHovered := ⟨s.angleCircleSelectedHovered, 1 / 10, false⟩ },
    hLine :=
      { regular := ⟨s.angleCrossLineDisabledRegular, 1 / 10, false⟩,
        selected := ⟨s.angleCrossLineDisabledSelected, 1 / 10, false⟩,
        regularHovered := ⟨s.angleCrossLineDisabledRegularHovered, 1 / 10, false⟩,
        selectedHovered := ⟨s.angleCrossLineDisabledSelectedHovered, 1 / 10, false⟩ },
    vLine :=
      { regular := ⟨s.angleCrossLineEnabledRegular, 1 / 10, false⟩,
        selected := ⟨s.angleCrossLineEnabledSelected, 1 / 10, false⟩,
        regularHovered := ⟨s.angleCrossLineEnabledRegularHovered, 1 / 10, false⟩,
        selectedHovered := ⟨s.angleCrossLineEnabledSelectedHovered, 1 / 10, false⟩ } }

/-- `make_angle_hv_disabled` (`src/ui/qt/structure_view/structure_style.cpp:151-166`). -/
def makeAngleHvDisabled (s : StructureStyle) : AngleParams :=
  { circle :=
      { regular := ⟨s.angleCircleRegular, 1 / 10, false⟩,
        selected := ⟨s.angleCircleSelected, 1 / 10, false⟩,
        regularHovered := ⟨s.angleCircleRegularHovered, 1 / 10, false⟩,
        selectedHovered := ⟨s.angleCircleSelectedHovered, 1 / 10, false⟩ },
    hLine :=
      { regular := ⟨s.angleCrossLineDisabledRegular, 1 / 10, false⟩,
        selected := ⟨s.angleCrossLineDisabledSelected, 1 / 10, false⟩,
        regularHovered := ⟨s.angleCrossLineDisabledRegularHovered, 1 / 10, false⟩,
        selectedHovered := ⟨s.angleCrossLineDisabledSelectedHovered, 1 / 10, false⟩ },
    vLine :=
      { regular := ⟨s.angleCrossLineDisabledRegular, 1 / 10, false⟩,
        selected := ⟨s.angleCrossLineDisabledSelected, 1 / 10, false⟩,
        regularHovered := ⟨s.angleCrossLineDisabledRegularHovered, 1 / 10, false⟩,
        selectedHovered := ⟨s.angleCrossLineDisabledSelectedHovered, 1 / 10, false⟩ } }

/-- `make_edge` (`src/ui/qt/structure_view/structure_style.cpp:169-176`). -/
def makeEdge (s : StructureStyle) : Four Pen :=
  { regular := ⟨s.edgeRegular, s.edgeWidthRegular, false⟩,
    selected := ⟨s.edgeSelected, s.edgeWidthSelected, false⟩,
    regularHovered := ⟨s.edgeRegularHovered, s.edgeWidthRegularHovered, false⟩,
    selectedHovered := ⟨s.edgeSelectedHovered, s.edgeWidthSelectedHovered, false⟩ }

/-- `make_polygon_shape` (`src/ui/qt/structure_view/structure_style.cpp:179-190`). -/
def makePolygonShape (s : StructureStyle) : PolygonParams :=
  { contour :=
      { regular := ⟨s.polygonShapeContourRegular, 0, false⟩,
        selected := ⟨s.polygonShapeContourSelected, 0, false⟩,
        regularHovered := ⟨s.polygonShapeContourRegularHovered, 0, false⟩,
        selectedHovered := ⟨s.polygonShapeContourSelectedHovered, 0, false⟩ },
    fill :=
      { regular := s.polygonShapeFillRegular,
        selected := s.polygonShapeFillSelected,
        regularHovered := s.polygonShapeFillRegularHovered,
        selectedHovered := s.polygonShapeFillSelectedHovered } }

/-- `make_polygon_port` (`src/ui/qt/structure_view/structure_style.cpp:193-204`). -/
def makePolygonPort (s : StructureStyle) : PolygonParams :=
  { contour :=
      { regular := ⟨s.polygonPortContourRegular, 0, false⟩,
        selected := ⟨s.polygonPortContourSelected, 0, false⟩,
        regularHovered := ⟨s.polygonPortContourRegularHovered, 0, false⟩,
        selectedHovered := ⟨s.polygonPortContourSelectedHovered, 0, false⟩ },
    fill :=
      { regular := s.polygonPortFillRegular,
        selected := s.polygonPortFillSelected,
        regularHovered := s.polygonPortFillRegularHovered,
        selectedHovered := s.polygonPortFillSelectedHovered } }

/-- `make_polygon_ground` (`src/ui/qt/structure_view/structure_style.cpp:207-218`). -/
def makePolygonGround (s : StructureStyle) : PolygonParams :=
  { contour :=
      { regular := ⟨s.polygonGroundContourRegular, 0, false⟩,
        selected := ⟨s.polygonGroundContourSelected, 0, false⟩,
        regularHovered := ⟨s.polygonGroundContourRegularHovered, 0, false⟩,
        selectedHovered := ⟨s.polygonGroundContourSelectedHovered, 0, false⟩ },
    fill :=
      { regular := s.polygonGroundFillRegular,
        selected := s.polygonGroundFillSelected,
        regularHovered := s.polygonGroundFillRegularHovered,
        selectedHovered := s.polygonGroundFillSelectedHovered } }

/-- `make_polygon_substrate` (`src/ui/qt/structure_view/structure_style.cpp:221-232`). -/
def makePolygonSubstrate (s : StructureStyle) : PolygonParams :=
  { contour :=
      { regular := ⟨s.polygonSubstrateContourRegular, 0, false⟩,
        selected := ⟨s.polygonSubstrateContourSelected, 0, false⟩,
        regularHovered := ⟨s.polygonSubstrateContourRegularHovered, 0, false⟩,
        selectedHovered := ⟨s.polygonSubstrateContourSelectedHovered, 0, false⟩ },
    fill :=
      { regular := s.polygonSubstrateFillRegular,
        selected := s.polygonSubstrateFillSelected,
        regularHovered := s.polygonSubstrateFillRegularHovered,
        selectedHovered := s.polygonSubstrateFillSelectedHovered } }

/-- `make_meshline` (`src/ui/qt/structure_view/structure_style.cpp:235-242`). -/
def makeMeshline (s : StructureStyle) : Four Pen :=
  { regular := ⟨s.meshlineRegular, 0, false⟩,
    selected := ⟨s.meshlineSelected, 0, false⟩,
    regularHovered := ⟨s.meshlineRegularHovered, 0, false⟩,
    selectedHovered := ⟨s.meshlineSelectedHovered, 0, false⟩ }

/-- `make_meshline_policy_enabled` (`src/ui/qt/structure_view/structure_style.cpp:245-256`). -/
def makeMeshlinePolicyEnabled (s : StructureStyle) : PolicyParams :=
  { mainLine :=
      { regular := ⟨s.meshlinePolicyEnabledMainLineRegular, 1 / 10, true⟩,
        selected := ⟨s.meshlinePolicyEnabledMainLineSelected, 1 / 10, true⟩,
        regularHovered := ⟨s.meshlinePolicyEnabledMainLineRegularHovered, 1 / 10, true⟩,
        selectedHovered := ⟨s.meshlinePolicyEnabledMainLineSelectedHovered, 1 / 10, true⟩ },
    policyLines :=
      { regular := ⟨s.meshlinePolicyEnabledPolicyLinesRegular, 1 / 10, true⟩,
        selected := ⟨s.meshlinePolicyEnabledPolicyLinesSelected, 1 / 10, true⟩,
        regularHovered := ⟨s.meshlinePolicyEnabledPolicyLinesRegularHovered, 1 / 10, true⟩,
        selectedHovered := ⟨s.meshlinePolicyEnabledPolicyLinesSelectedHovered, 1 / 10, true⟩ } }

/-- `make_meshline_policy_disabled` (`src/ui/qt/structure_view/structure_style.cpp:259-270`). -/
def makeMeshlinePolicyDisabled (s : StructureStyle) : PolicyParams :=
  { mainLine :=
      { regular := ⟨s.meshlinePolicyDisabledMainLineRegular, 1 / 10, true⟩,
        selected := ⟨s.meshlinePolicyDisabledMainLineSelected, 1 / 10, true⟩,
        regularHovered := ⟨s.meshlinePolicyDisabledMainLineRegularHovered, 1 / 10, true⟩,
        selectedHovered := ⟨s.meshlinePolicyDisabledMainLineSelectedHovered, 1 / 10, true⟩ },
    policyLines :=
      { regular := ⟨s.meshlinePolicyDisabledPolicyLinesRegular, 1 / 10, true⟩,
        selected := ⟨s.meshlinePolicyDisabledPolicyLinesSelected, 1 / 10, true⟩,
        regularHovered := ⟨s.meshlinePolicyDisabledPolicyLinesRegularHovered, 1 / 10, true⟩,
        selectedHovered := ⟨s.meshlinePolicyDisabledPolicyLinesSelectedHovered, 1 / 10, true⟩ } }

/-- `make_interval` (`src/ui/qt/structure_view/structure_style.cpp:273-280`). -/
def makeInterval (s : StructureStyle) : Four Color :=
  { regular := s.intervalRegular,
    selected := s.intervalSelected,
    regularHovered := s.intervalRegularHovered,
    selectedHovered := s.intervalSelectedHovered }

/-- `make_conflict_ce` (`src/ui/qt/structure_view/structure_style.cpp:283-290`). -/
def makeConflictCe (s : StructureStyle) : Four Pen :=
  { regular := ⟨s.conflictCeRegular, 1 / 10, true⟩,
    selected := ⟨s.conflictCeSelected, 1 / 10, true⟩,
    regularHovered := ⟨s.conflictCeRegularHovered, 1 / 10, true⟩,
    selectedHovered := ⟨s.conflictCeSelectedHovered, 1 / 10, true⟩ }

/-- `make_conflict_docz` (`src/ui/qt/structure_view/structure_style.cpp:293-300`). -/
def makeConflictDocz (s : StructureStyle) : Four Color :=
  { regular := s.conflictDoczRegular,
    selected := s.conflictDoczSelected,
    regularHovered := s.conflictDoczRegularHovered,
    selectedHovered := s.conflictDoczSelectedHovered }

/-- `make_conflict_tcmlp` (`src/ui/qt/structure_view/structure_style.cpp:303-314`). -/
def makeConflictTcmlp (s : StructureStyle) : TcmlpParams :=
  { solutionLine :=
      { regular := ⟨s.conflictTcmlpSolutionLineRegular, 0, false⟩,
        selected := ⟨s.conflictTcmlpSolutionLineSelected, 0, false⟩,
        regularHovered := ⟨s.conflictTcmlpSolutionLineRegularHovered, 0, false⟩,
        selectedHovered := ⟨s.conflictTcmlpSolutionLineSelectedHovered, 0, false⟩ },
    originLines :=
      { regular := ⟨s.conflictTcmlpOriginLinesRegular, 0, false⟩,
        selected := ⟨s.conflictTcmlpOriginLinesSelected, 0, false⟩,
        regularHovered := ⟨s.conflictTcmlpOriginLinesRegularHovered, 0, false⟩,
        selectedHovered := ⟨s.conflictTcmlpOriginLinesSelectedHovered, 0, false⟩ } }

/-- `option->state`: `State_Selected` and `State_MouseOver` (`src/ui/qt/structure_view/structure_edge.cpp:43-44`). -/
structure State where
  selected : Bool
  hovered : Bool
  deriving DecidableEq

/-- The choice among four (`src/ui/qt/structure_view/structure_edge.cpp:43-53`, and alike
`structure_meshline.cpp:62-72`, `structure_angle.cpp:62-101`, `structure_meshline_policy.cpp:111-135`, `structure_interval.cpp:79-89`,
`structure_conflict_colinear_edges.cpp:63-73`, `structure_conflict_diagonal_or_circular_zone.cpp:74-84`,
`structure_conflict_too_close_meshline_policies.cpp:66-90`). -/
def Four.choose {α : Type} (f : Four α) (s : State) : α :=
  if s.selected then
    if s.hovered then f.selectedHovered else f.selected
  else
    if s.hovered then f.regularHovered else f.regular

/-- What is drawn, with what: lines or an ellipse with a pen, a rectangle with a brush, a polygon with both
(`src/ui/qt/structure_view/structure_angle.cpp:74, 88, 103`, `structure_interval.cpp:91-92`, `structure_polygon.cpp:118`). -/
inductive Drawn where
  | horizontal (p : Pen)
  | vertical (p : Pen)
  | circle (p : Pen)
  | line (p : Pen)
  | lines (p : Pen)
  | rect (fill : Color)
  | polygon (fill : Color) (p : Pen)
  deriving DecidableEq

/-- The items of a scene and what their painting depends on: of an angle, whether it is meshed along each axis; of a polygon, the
colours of its material for its inside and its contour, if it has both; of a policy, whether it is enabled
(`src/ui/qt/structure_view/structure_scene.cpp:117-262`, `structure_polygon.cpp:46-49`). -/
inductive Item where
  | angle (h v : Bool)
  | edge
  | polygon (material : Option (Color × Color))
  | meshline
  | policy (enabled : Bool)
  | interval
  | ce
  | docz
  | tcmlp
  deriving DecidableEq

/-- The parameters of an angle (`src/ui/qt/structure_view/structure_scene.cpp:120-139`). -/
def angleParams (s : StructureStyle) (h v : Bool) : AngleParams :=
  if h && v then makeAngleHvEnabled s
  else if h && !v then makeAngleHEnabled s
  else if !h && v then makeAngleVEnabled s
  else makeAngleHvDisabled s

/-- `StructurePolygon::paint` (`src/ui/qt/structure_view/structure_polygon.cpp:83-119`); a pen made of a colour has the width one.
All polygons have the parameters of `polygon_shape` (`src/ui/qt/structure_view/structure_scene.cpp:186-188`). -/
def paintPolygon (p : PolygonParams) (useMaterial : Bool) (material : Option (Color × Color)) (s : State) : Drawn :=
  if s.selected then
    match useMaterial, material with
    | true, some (f, e) => .polygon f ⟨e, 1, false⟩
    | _, _ =>
      if s.hovered then .polygon p.fill.selectedHovered p.contour.selectedHovered
      else .polygon p.fill.selected p.contour.selected
  else
    if s.hovered then
      match useMaterial, material with
      | true, some (f, e) => .polygon f ⟨e, 1, false⟩
      | _, _ => .polygon p.fill.regularHovered p.contour.regularHovered
    else .polygon p.fill.regular p.contour.regular

/-- `paint` of each item, in the order of the drawing, with the parameters that `StructureScene::add` gives it
(`src/ui/qt/structure_view/structure_scene.cpp:117-262`, `structure_angle.cpp:59-104`, `structure_edge.cpp:40-56`,
`structure_polygon.cpp:83-119`, `structure_meshline.cpp:59-75`, `structure_meshline_policy.cpp:108-139`, `structure_interval.cpp:76-93`,
`structure_conflict_colinear_edges.cpp:60-76`, `structure_conflict_diagonal_or_circular_zone.cpp:71-88`,
`structure_conflict_too_close_meshline_policies.cpp:63-94`). -/
def paint (style : StructureStyle) (useMaterial : Bool) (i : Item) (s : State) : List Drawn :=
  match i with
  | .angle h v =>
    let p := angleParams style h v
    [.horizontal (p.hLine.choose s), .vertical (p.vLine.choose s), .circle (p.circle.choose s)]
  | .edge => [.line ((makeEdge style).choose s)]
  | .polygon material => [paintPolygon (makePolygonShape style) useMaterial material s]
  | .meshline => [.line ((makeMeshline style).choose s)]
  | .policy enabled =>
    let p := if enabled then makeMeshlinePolicyEnabled style else makeMeshlinePolicyDisabled style
    [.line (p.mainLine.choose s), .lines (p.policyLines.choose s)]
  | .interval => [.rect ((makeInterval style).choose s)]
  | .ce => [.line ((makeConflictCe style).choose s)]
  | .docz => [.rect ((makeConflictDocz style).choose s)]
  | .tcmlp =>
    let p := makeConflictTcmlp style
    [.line (p.solutionLine.choose s), .lines (p.originLines.choose s)]

/-- The style of the view: that of "Main" at first (`src/ui/qt/main_window.cpp:110-118`), then that of the action that was triggered, if
there is one with its name (`src/ui/qt/main_window.cpp:204-208, 185-190`, `structure_style.cpp:54-73`). -/
def chosen : List String → StructureStyle
  | [] => main
  | name :: before => match findStyle name with
    | some style => style
    | none => chosen before

end Verif.Paint
