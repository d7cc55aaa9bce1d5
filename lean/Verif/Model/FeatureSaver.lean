import Verif.Model.Style
import Verif.Model.StyleSplit
import Verif.Model.Walk

/-!
# Saving the features of a document (src/kml/convenience/kml_feature_list_saver.h)
-/

namespace Kml.Dom

open Kml

/-- kml_feature_list_saver.h 109-113, the members of `KmlFeatureListSaver`: the list of features, the map of styles and
whether the parser is inside an `Update`. -/
structure Saver where
  features : List Elem
  styles : StdMap Elem
  inUpdate : Bool

/-- kml_feature_list_saver.h 52-62, the constructor, with an empty list and an empty map. -/
def Saver.init : Saver := ⟨[], [], false⟩

/-- kml_feature_list_saver.h 85-91: a reference to a style of the same file gets the base. -/
def rebase (base : Str) (f : Elem) : Elem :=
  if !base.isEmpty && f.hasStyleUrl then
    if (f.text M.«styleurl»).length > 2 && (f.text M.«styleurl»).head? = some '#' then
      f.setStyleUrl (base ++ f.text M.«styleurl»)
    else f
  else f

/-- kml_feature_list_saver.h 71-106 `EndElement`. `styles` says that there is a map for styles. -/
def Saver.endElement (styles : Bool) (base : Str) (s : Saver) (parent child : Elem) : Bool × Saver :=
  if child.ty = Ty.«Update» then (false, { s with inUpdate := false })
  else if s.inUpdate then (true, s)
  else if child.isA Ty.«Feature» && !child.isA Ty.«Container» then
    (false, { s with features := s.features ++ [rebase base child] })
  else if styles && child.isA Ty.«StyleSelector» && parent.isA Ty.«Document» then
    match child.objectId with
    | some id => (false, { s with styles := s.styles.set id child })
    | none => (true, s)
  else (true, s)

/-- kml_feature_list_saver.h 50-114 `KmlFeatureListSaver`.  The method of lines 64-69 that notes the start of an
`Update` is called `StartElement`; the parser calls `NewElement` (parser_observer.h 41-63), which is inherited and only
answers yes. -/
def featureSaver (styles : Bool) (base : Str) : Observer Saver where
  new s _ := (true, s)
  endElement := Saver.endElement styles base
  addChild s _ _ := (true, s)

end Kml.Dom
