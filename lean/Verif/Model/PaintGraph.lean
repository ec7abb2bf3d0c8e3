import Verif.Model.Paint

/-!
# What the processing view is painted with

The style of the processing view (`src/ui/qt/processing_view/processing_style.hpp`, `src/ui/qt/style.cpp`), the pens and brushes made of
it (`src/ui/qt/processing_view/processing_style.cpp`), and how nodes, texts, ports and wires choose among these. `QColor::lighter` and
`QColor::darker` are those of Qt, a parameter here. The nested zone of containers is left out.
-/

namespace Verif.Paint

/-- `Qt::darkRed` (`src/ui/qt/processing_view/processing_style.hpp:105`). -/
def Color.darkRed : Color := ⟨128, 0, 0, 255⟩
/-- `Qt::darkMagenta` (`src/ui/qt/style.cpp:238`). -/
def Color.darkMagenta : Color := ⟨128, 0, 128, 255⟩

/-- `QColor::lighter` and `QColor::darker` with their percentage (`src/ui/qt/processing_view/processing_style.hpp:38-40`). -/
structure Shades where
  lighter : Color → Nat → Color
  darker : Color → Nat → Color

/-- `ProcessingStyle` (`src/ui/qt/processing_view/processing_style.hpp:31-149`), each member with its default. -/
structure ProcessingStyle (q : Shades) where
  background : Color := ⟨57, 57, 57, 255⟩
  nodeBackgroundRegular : Color := ⟨27, 27, 27, 255⟩
  nodeBackgroundHighlighted : Color := nodeBackgroundRegular
  nodeBackgroundSelected : Color := nodeBackgroundRegular
  nodeBackgroundRegularHovered : Color := q.lighter nodeBackgroundRegular 150
  nodeBackgroundHighlightedHovered : Color := q.lighter nodeBackgroundHighlighted 150
  nodeBackgroundSelectedHovered : Color := q.darker nodeBackgroundSelected 200
  nodeTitleBackgroundRegular : Color := ⟨33, 33, 33, 255⟩
  nodeTitleBackgroundHighlighted : Color := nodeTitleBackgroundRegular
  nodeTitleBackgroundSelected : Color := nodeTitleBackgroundRegular
  nodeTitleBackgroundRegularHovered : Color := q.lighter nodeTitleBackgroundRegular 150
  nodeTitleBackgroundHighlightedHovered : Color := q.lighter nodeTitleBackgroundHighlighted 150
  nodeTitleBackgroundSelectedHovered : Color := q.darker nodeTitleBackgroundSelected 200
  nodeTitleTextRegular : Color := .white
  nodeTitleTextHighlighted : Color := nodeTitleTextRegular
  nodeTitleTextSelected : Color := .black
  nodeTitleTextRegularHovered : Color := nodeTitleTextRegular
  nodeTitleTextHighlightedHovered : Color := nodeTitleTextHighlighted
  nodeTitleTextSelectedHovered : Color := nodeTitleTextSelected
  nodeRadius : ℚ := 10
  containerNestedZoneRegular : Color := background
  containerNestedZoneHighlighted : Color := containerNestedZoneRegular
  containerNestedZoneSelected : Color := containerNestedZoneRegular
  containerNestedZoneRegularHovered : Color := containerNestedZoneRegular
  containerNestedZoneHighlightedHovered : Color := containerNestedZoneHighlighted
  containerNestedZoneSelectedHovered : Color := containerNestedZoneSelected
  containerNestedZoneOpacity : ℚ := 1 / 2
  wireRegular : Color := .green
  wireHighlighted : Color := wireRegular
  wireSelected : Color := wireRegular
  wireRegularHovered : Color := q.lighter wireRegular 150
  wireHighlightedHovered : Color := q.lighter wireHighlighted 150
  wireSelectedHovered : Color := q.lighter wireSelected 150
  wireWidthRegular : ℚ := 2
  wireWidthHighlighted : ℚ := wireWidthRegular
  wireWidthSelected : ℚ := wireWidthRegular
  wireWidthRegularHovered : ℚ := wireWidthRegular * 2
  wireWidthHighlightedHovered : ℚ := wireWidthHighlighted * 2
  wireWidthSelectedHovered : ℚ := wireWidthSelected * 2
  textNormalRegular : Color := .white
  textNormalHighlighted : Color := textNormalRegular
  textNormalSelected : Color := textNormalRegular
  textNormalRegularHovered : Color := textNormalRegular
  textNormalHighlightedHovered : Color := textNormalHighlighted
  textNormalSelectedHovered : Color := textNormalSelected
  textEnabledRegular : Color := .darkGreen
  textEnabledHighlighted : Color := textEnabledRegular
  textEnabledSelected : Color := textEnabledRegular
  textEnabledRegularHovered : Color := textEnabledRegular
  textEnabledHighlightedHovered : Color := textEnabledHighlighted
  textEnabledSelectedHovered : Color := textEnabledSelected
  textEnabledForSureRegular : Color := .green
  textEnabledForSureHighlighted : Color := textEnabledForSureRegular
  textEnabledForSureSelected : Color := textEnabledForSureRegular
  textEnabledForSureRegularHovered : Color := textEnabledForSureRegular
  textEnabledForSureHighlightedHovered : Color := textEnabledForSureHighlighted
  textEnabledForSureSelectedHovered : Color := textEnabledForSureSelected
  textDisabledRegular : Color := .darkRed
  textDisabledHighlighted : Color := textDisabledRegular
  textDisabledSelected : Color := textDisabledRegular
  textDisabledRegularHovered : Color := textDisabledRegular
  textDisabledHighlightedHovered : Color := textDisabledHighlighted
  textDisabledSelectedHovered : Color := textDisabledSelected
  portTextNormalRegular : Color := textNormalRegular
  portTextNormalHighlighted : Color := portTextNormalRegular
  portTextNormalSelected : Color := portTextNormalRegular
  portTextNormalRegularHovered : Color := portTextNormalRegular
  portTextNormalHighlightedHovered : Color := portTextNormalHighlighted
  portTextNormalSelectedHovered : Color := portTextNormalSelected
  portTextEnabledRegular : Color := textEnabledRegular
  portTextEnabledHighlighted : Color := portTextEnabledRegular
  portTextEnabledSelected : Color := portTextEnabledRegular
  portTextEnabledRegularHovered : Color := portTextEnabledRegular
  portTextEnabledHighlightedHovered : Color := portTextEnabledHighlighted
  portTextEnabledSelectedHovered : Color := portTextEnabledSelected
  portTextDisabledRegular : Color := textDisabledRegular
  portTextDisabledHighlighted : Color := portTextDisabledRegular
  portTextDisabledSelected : Color := portTextDisabledRegular
  portTextDisabledRegularHovered : Color := portTextDisabledRegular
  portTextDisabledHighlightedHovered : Color := portTextDisabledHighlighted
  portTextDisabledSelectedHovered : Color := portTextDisabledSelected
  portContourRegular : Color := .black
  portContourHighlighted : Color := portContourRegular
  portContourSelected : Color := portContourRegular
  portContourRegularHovered : Color := portContourRegular
  portContourHighlightedHovered : Color := portContourHighlighted
  portContourSelectedHovered : Color := portContourSelected
  portFillRegular : Color := ⟨255, 119, 0, 255⟩
  portFillHighlighted : Color := portFillRegular
  portFillSelected : Color := portFillRegular
  portFillRegularHovered : Color := portFillRegular
  portFillHighlightedHovered : Color := portFillHighlighted
  portFillSelectedHovered : Color := portFillSelected
  portRadius : ℚ := 5

/-- The part of the style "Main" for the processing view (`src/ui/qt/style.cpp:17-112`). -/
def mainGraph (q : Shades) : ProcessingStyle q :=
  {
    background := ⟨57, 57, 57, 255⟩
    nodeBackgroundRegular := ⟨27, 27, 27, 255⟩
    nodeBackgroundSelected := .white
    nodeBackgroundSelectedHovered := q.darker .white 150
    nodeTitleBackgroundRegular := ⟨33, 33, 33, 255⟩
    nodeTitleBackgroundHighlighted := ⟨222, 222, 222, 255⟩
    nodeTitleBackgroundSelected := ⟨222, 222, 222, 255⟩
    nodeTitleBackgroundRegularHovered := q.lighter ⟨33, 33, 33, 255⟩ 150
    nodeTitleBackgroundHighlightedHovered := q.darker ⟨222, 222, 222, 255⟩ 150
    nodeTitleBackgroundSelectedHovered := q.darker ⟨222, 222, 222, 255⟩ 150
    nodeTitleTextRegular := .white
    nodeTitleTextHighlighted := .black
    nodeTitleTextSelected := .black
    wireHighlighted := .magenta
    wireWidthHighlighted := 4
    wireWidthHighlightedHovered := 6
    textNormalRegular := .white
    textNormalSelected := .black
    portTextNormalRegular := .white
    portTextNormalSelected := .black }

/-- The part of the style "2" for the processing view (`src/ui/qt/style.cpp:197-292`). -/
def secondGraph (q : Shades) : ProcessingStyle q :=
  {
    background := ⟨57, 57, 57, 255⟩
    nodeBackgroundRegular := .darkYellow
    nodeBackgroundSelected := .white
    nodeBackgroundSelectedHovered := q.darker .white 150
    nodeTitleBackgroundRegular := ⟨33, 33, 33, 255⟩
    nodeTitleBackgroundHighlighted := ⟨222, 222, 222, 255⟩
    nodeTitleBackgroundSelected := ⟨222, 222, 222, 255⟩
    nodeTitleBackgroundRegularHovered := q.lighter ⟨33, 33, 33, 255⟩ 150
    nodeTitleBackgroundHighlightedHovered := q.darker ⟨222, 222, 222, 255⟩ 150
    nodeTitleBackgroundSelectedHovered := q.darker ⟨222, 222, 222, 255⟩ 150
    nodeTitleTextRegular := .white
    nodeTitleTextHighlighted := .black
    nodeTitleTextSelected := .black
    wireHighlighted := q.lighter .green 150
    wireWidthHighlighted := 4
    textNormalRegular := .white
    textNormalHighlighted := .darkMagenta
    textNormalSelected := .black
    portTextNormalRegular := .white
    portTextNormalHighlighted := .darkMagenta
    portTextNormalSelected := .black }

/-- The six members that a `Params` has for a pen or a brush (`src/ui/qt/utils/nodegraph/text.hpp:26-33`, made in
`src/ui/qt/processing_view/processing_style.cpp:231-240`). -/
structure Six (α : Type) where
  regular : α
  highlighted : α
  selected : α
  regularHovered : α
  highlightedHovered : α
  selectedHovered : α

/-- `Port::Params` without the radius, made in `src/ui/qt/processing_view/processing_style.cpp:113-185`. -/
structure PortParams where
  text : Six Pen
  contour : Six Pen
  fill : Six Color

/-- `Node::Params` without the radius, made in `src/ui/qt/processing_view/processing_style.cpp:188-204`. -/
structure NodeParams where
  titleBackground : Six Color
  background : Six Color

variable {q : Shades}

/-- `make_wire` (`src/ui/qt/processing_view/processing_style.cpp:101-110`). -/
def makeWire (s : ProcessingStyle q) : Six Pen :=
  { regular := ⟨s.wireRegular, s.wireWidthRegular, false⟩,
    highlighted := ⟨s.wireHighlighted, s.wireWidthHighlighted, false⟩,
    selected := ⟨s.wireSelected, s.wireWidthSelected, false⟩,
    regularHovered := ⟨s.wireRegularHovered, s.wireWidthRegularHovered, false⟩,
    highlightedHovered := ⟨s.wireHighlightedHovered, s.wireWidthHighlightedHovered, false⟩,
    selectedHovered := ⟨s.wireSelectedHovered, s.wireWidthSelectedHovered, false⟩ }

/-- `make_port_normal` (`src/ui/qt/processing_view/processing_style.cpp:113-135`). -/
def makePortNormal (s : ProcessingStyle q) : PortParams :=
  { text :=
      { regular := ⟨s.portTextNormalRegular, 1, false⟩,
        highlighted := ⟨s.portTextNormalHighlighted, 1, false⟩,
        selected := ⟨s.portTextNormalSelected, 1, false⟩,
        regularHovered := ⟨s.portTextNormalRegularHovered, 1, false⟩,
        highlightedHovered := ⟨s.portTextNormalHighlightedHovered, 1, false⟩,
        selectedHovered := ⟨s.portTextNormalSelectedHovered, 1, false⟩ },
    contour :=
      { regular := ⟨s.portContourRegular, 1, false⟩,
        highlighted := ⟨s.portContourHighlighted, 1, false⟩,
        selected := ⟨s.portContourSelected, 1, false⟩,
        regularHovered := ⟨s.portContourRegularHovered, 1, false⟩,
        highlightedHovered := ⟨s.portContourHighlightedHovered, 1, false⟩,
        selectedHovered := ⟨s.portContourSelectedHovered, 1, false⟩ },
    fill :=
      { regular := s.portFillRegular,
        highlighted := s.portFillHighlighted,
        selected := s.portFillSelected,
        regularHovered := s.portFillRegularHovered,
        highlightedHovered := s.portFillHighlightedHovered,
        selectedHovered := s.portFillSelectedHovered } }

/-- `make_port_enabled` (`src/ui/qt/processing_view/processing_style.cpp:138-160`). -/
def makePortEnabled (s : ProcessingStyle q) : PortParams :=
  { text :=
      { regular := ⟨s.portTextEnabledRegular, 1, false⟩,
        highlighted := ⟨s.portTextEnabledHighlighted, 1, false⟩,
        selected := ⟨s.portTextEnabledSelected, 1, false⟩,
        regularHovered := ⟨s.portTextEnabledRegularHovered, 1, false⟩,
        highlightedHovered := ⟨s.portTextEnabledHighlightedHovered, 1, false⟩,
        selectedHovered := ⟨s.portTextEnabledSelectedHovered, 1, false⟩ },
    contour :=
      { regular := ⟨s.portContourRegular, 1, false⟩,
        highlighted := ⟨s.portContourHighlighted, 1, false⟩,
        selected := ⟨s.portContourSelected, 1, false⟩,
        regularHovered := ⟨s.portContourRegularHovered, 1, false⟩,
        highlightedHovered := ⟨s.portContourHighlightedHovered, 1, false⟩,
        selectedHovered := ⟨s.portContourSelectedHovered, 1, false⟩ },
    fill :=
      { regular := s.portFillRegular,
        highlighted := s.portFillHighlighted,
        selected := s.portFillSelected,
        regularHovered := s.portFillRegularHovered,
        highlightedHovered := s.portFillHighlightedHovered,
        selectedHovered := s.portFillSelectedHovered } }

/-- `make_port_disabled` (`src/ui/qt/processing_view/processing_style.cpp:163-185`). -/
def makePortDisabled (s : ProcessingStyle q) : PortParams :=
  { text :=
      { regular := ⟨s.portTextDisabledRegular, 1, false⟩,
        highlighted := ⟨s.portTextDisabledHighlighted, 1, false⟩,
        selected := ⟨s.portTextDisabledSelected, 1, false⟩,
        regularHovered := ⟨s.portTextDisabledRegularHovered, 1, false⟩,
        highlightedHovered := ⟨s.portTextDisabledHighlightedHovered, 1, false⟩,
        selectedHovered := ⟨s.portTextDisabledSelectedHovered, 1, false⟩ },
    contour :=
      { regular := ⟨s.portContourRegular, 1, false⟩,
        highlighted := ⟨s.portContourHighlighted, 1, false⟩,
        selected := ⟨s.portContourSelected, 1, false⟩,
        regularHovered := ⟨s.portContourRegularHovered, 1, false⟩,
        highlightedHovered := ⟨s.portContourHighlightedHovered, 1, false⟩,
        selectedHovered := ⟨s.portContourSelectedHovered, 1, false⟩ },
    fill :=
      { regular := s.portFillRegular,
        highlighted := s.portFillHighlighted,
        selected := s.portFillSelected,
        regularHovered := s.portFillRegularHovered,
        highlightedHovered := s.portFillHighlightedHovered,
        selectedHovered := s.portFillSelectedHovered } }

/-- `make_node` (`src/ui/qt/processing_view/processing_style.cpp:188-204`). -/
def makeNode (s : ProcessingStyle q) : NodeParams :=
  { titleBackground :=
      { regular := s.nodeTitleBackgroundRegular,
        highlighted := s.nodeTitleBackgroundHighlighted,
        selected := s.nodeTitleBackgroundSelected,
        regularHovered := s.nodeTitleBackgroundRegularHovered,
        highlightedHovered := s.nodeTitleBackgroundHighlightedHovered,
        selectedHovered := s.nodeTitleBackgroundSelectedHovered },
    background :=
      { regular := s.nodeBackgroundRegular,
        highlighted := s.nodeBackgroundHighlighted,
        selected := s.nodeBackgroundSelected,
        regularHovered := s.nodeBackgroundRegularHovered,
        highlightedHovered := s.nodeBackgroundHighlightedHovered,
        selectedHovered := s.nodeBackgroundSelectedHovered } }

/-- `make_title` (`src/ui/qt/processing_view/processing_style.cpp:231-240`). -/
def makeTitle (s : ProcessingStyle q) : Six Pen :=
  { regular := ⟨s.nodeTitleTextRegular, 1, false⟩,
    highlighted := ⟨s.nodeTitleTextHighlighted, 1, false⟩,
    selected := ⟨s.nodeTitleTextSelected, 1, false⟩,
    regularHovered := ⟨s.nodeTitleTextRegularHovered, 1, false⟩,
    highlightedHovered := ⟨s.nodeTitleTextHighlightedHovered, 1, false⟩,
    selectedHovered := ⟨s.nodeTitleTextSelectedHovered, 1, false⟩ }

/-- `make_text_normal` (`src/ui/qt/processing_view/processing_style.cpp:243-252`). -/
def makeTextNormal (s : ProcessingStyle q) : Six Pen :=
  { regular := ⟨s.textNormalRegular, 1, false⟩,
    highlighted := ⟨s.textNormalHighlighted, 1, false⟩,
    selected := ⟨s.textNormalSelected, 1, false⟩,
    regularHovered := ⟨s.textNormalRegularHovered, 1, false⟩,
    highlightedHovered := ⟨s.textNormalHighlightedHovered, 1, false⟩,
    selectedHovered := ⟨s.textNormalSelectedHovered, 1, false⟩ }

/-- `make_text_enabled` (`src/ui/qt/processing_view/processing_style.cpp:255-264`). -/
def makeTextEnabled (s : ProcessingStyle q) : Six Pen :=
  { regular := ⟨s.textEnabledRegular, 1, false⟩,
    highlighted := ⟨s.textEnabledHighlighted, 1, false⟩,
    selected := ⟨s.textEnabledSelected, 1, false⟩,
    regularHovered := ⟨s.textEnabledRegularHovered, 1, false⟩,
    highlightedHovered := ⟨s.textEnabledHighlightedHovered, 1, false⟩,
    selectedHovered := ⟨s.textEnabledSelectedHovered, 1, false⟩ }

/-- `make_text_enabled_for_sure` (`src/ui/qt/processing_view/processing_style.cpp:267-276`). -/
def makeTextEnabledForSure (s : ProcessingStyle q) : Six Pen :=
  { regular := ⟨s.textEnabledForSureRegular, 1, false⟩,
    highlighted := ⟨s.textEnabledForSureHighlighted, 1, false⟩,
    selected := ⟨s.textEnabledForSureSelected, 1, false⟩,
    regularHovered := ⟨s.textEnabledForSureRegularHovered, 1, false⟩,
    highlightedHovered := ⟨s.textEnabledForSureHighlightedHovered, 1, false⟩,
    selectedHovered := ⟨s.textEnabledForSureSelectedHovered, 1, false⟩ }

/-- `make_text_disabled` (`src/ui/qt/processing_view/processing_style.cpp:279-288`). -/
def makeTextDisabled (s : ProcessingStyle q) : Six Pen :=
  { regular := ⟨s.textDisabledRegular, 1, false⟩,
    highlighted := ⟨s.textDisabledHighlighted, 1, false⟩,
    selected := ⟨s.textDisabledSelected, 1, false⟩,
    regularHovered := ⟨s.textDisabledRegularHovered, 1, false⟩,
    highlightedHovered := ⟨s.textDisabledHighlightedHovered, 1, false⟩,
    selectedHovered := ⟨s.textDisabledSelectedHovered, 1, false⟩ }

/-- What a painted thing is: selected, highlighted, under the mouse (`src/ui/qt/utils/nodegraph/text.cpp:41-46`). -/
structure Mark where
  selected : Bool
  highlighted : Bool
  hovered : Bool
  deriving DecidableEq

/-- The choice among six (`src/ui/qt/utils/nodegraph/text.cpp:41-56`, and alike `node.cpp:106-121, 127-142`, `container.cpp:190-205,
218-233`, `port.cpp:52-94`, `wire.cpp:133-148`). -/
def Six.choose {α : Type} (f : Six α) (m : Mark) : α :=
  if m.selected then
    if m.hovered then f.selectedHovered else f.selected
  else if m.highlighted then
    if m.hovered then f.highlightedHovered else f.highlighted
  else
    if m.hovered then f.regularHovered else f.regular

/-- `Node::paint` and `Container::paint` (`src/ui/qt/utils/nodegraph/node.cpp:103-149`, `container.cpp:187-239`): the brush of the
whole, and that of the title. -/
def paintNode (s : ProcessingStyle q) (m : Mark) : Color × Color :=
  ((makeNode s).background.choose m, (makeNode s).titleBackground.choose m)

/-- `Wire::paint` (`src/ui/qt/utils/nodegraph/wire.cpp:129-152`): the pen, if both ends are visible. A wire is highlighted if both of
its ends are highlighted or selected. -/
def paintWire (s : ProcessingStyle q) (selected hovered : Bool) (begin end_ : Option Mark) : Option Pen :=
  match begin, end_ with
  | some b, some e =>
    some ((makeWire s).choose ⟨selected, (b.highlighted || b.selected) && (e.highlighted || e.selected), hovered⟩)
  | _, _ => none

/-- The kinds of texts: the title of a node, its lines, and the names of its ports
(`src/ui/qt/processing_view/processing_style.cpp:291-417`). -/
inductive Words where
  | title | normal | enabled | enabledForSure | disabled | portNormal | portEnabled | portDisabled
  deriving DecidableEq, Repr

/-- The pen of a text (`src/ui/qt/utils/nodegraph/text.cpp:38-59`, `port.cpp:49-94`,
`src/ui/qt/processing_view/processing_style.cpp:291-417`). -/
def paintText (s : ProcessingStyle q) (w : Words) (m : Mark) : Pen :=
  match w with
  | .title => (makeTitle s).choose m
  | .normal => (makeTextNormal s).choose m
  | .enabled => (makeTextEnabled s).choose m
  | .enabledForSure => (makeTextEnabledForSure s).choose m
  | .disabled => (makeTextDisabled s).choose m
  | .portNormal => (makePortNormal s).text.choose m
  | .portEnabled => (makePortEnabled s).text.choose m
  | .portDisabled => (makePortDisabled s).text.choose m

/-- The style of the view, as `chosen` (`src/ui/qt/main_window.cpp:110-118, 185-190, 204-208`,
`src/ui/qt/processing_view/processing_style.cpp:67-81`). The parameters of each kind of node refer to those that are made again there
(`processing_edge.hpp:27-35` and alike). -/
def chosenGraph (q : Shades) : List String → ProcessingStyle q
  | [] => mainGraph q
  | name :: before =>
    if name = "Main" then mainGraph q
    else if name = "2" then secondGraph q
    else chosenGraph q before

end Verif.Paint
