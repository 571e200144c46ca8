import Verif.Model.Xml
/-
Evidence for the model of `make_dtd`: the file `bglib/image/backgammon.dtd`, which an earlier version of the library wrote,
line by line.
-/
namespace Bglib.Check
open Bglib Bglib.Img

/-- The lines of the file, cut before each `<!ELEMENT`; without the last line, which is empty. -/
def dtdBlocks : List (List Text) := [
  [t!"<!ELEMENT cube (#PCDATA)* >",
   t!"<!ATTLIST cube ",
   t!"   color CDATA #IMPLIED",
   t!"   image CDATA #IMPLIED",
   t!"   flip CDATA #IMPLIED",
   t!"   height CDATA #IMPLIED",
   t!"   width CDATA #IMPLIED",
   t!"   background CDATA #IMPLIED",
   t!"   y CDATA #IMPLIED",
   t!"   x CDATA #IMPLIED",
   t!"   font CDATA #IMPLIED",
   t!">"],
  [t!"<!ELEMENT bar (#PCDATA|chequer)* >",
   t!"<!ATTLIST bar ",
   t!"   player CDATA #IMPLIED",
   t!"   color CDATA #IMPLIED",
   t!"   image CDATA #IMPLIED",
   t!"   flip CDATA #IMPLIED",
   t!"   height CDATA #IMPLIED",
   t!"   width CDATA #IMPLIED",
   t!"   background CDATA #IMPLIED",
   t!"   y CDATA #IMPLIED",
   t!"   x CDATA #IMPLIED",
   t!"   font CDATA #IMPLIED",
   t!">"],
  [t!"<!ELEMENT chequer (#PCDATA)* >",
   t!"<!ATTLIST chequer ",
   t!"   x_offset2 CDATA #IMPLIED",
   t!"   x_offset CDATA #IMPLIED",
   t!"   player CDATA #IMPLIED",
   t!"   color CDATA #IMPLIED",
   t!"   image CDATA #IMPLIED",
   t!"   y_offset2 CDATA #IMPLIED",
   t!"   flip CDATA #IMPLIED",
   t!"   hide_count CDATA #IMPLIED",
   t!"   height CDATA #IMPLIED",
   t!"   width CDATA #IMPLIED",
   t!"   max_count CDATA #IMPLIED",
   t!"   y_offset CDATA #IMPLIED",
   t!"   background CDATA #IMPLIED",
   t!"   y CDATA #IMPLIED",
   t!"   x CDATA #IMPLIED",
   t!"   font CDATA #IMPLIED",
   t!">"],
  [t!"<!ELEMENT point (#PCDATA|chequer)* >",
   t!"<!ATTLIST point ",
   t!"   parity CDATA #IMPLIED",
   t!"   color CDATA #IMPLIED",
   t!"   image CDATA #IMPLIED",
   t!"   flip CDATA #IMPLIED",
   t!"   height CDATA #IMPLIED",
   t!"   width CDATA #IMPLIED",
   t!"   background CDATA #IMPLIED",
   t!"   y CDATA #IMPLIED",
   t!"   x CDATA #IMPLIED",
   t!"   font CDATA #IMPLIED",
   t!"   fill CDATA #IMPLIED",
   t!">"],
  [t!"<!ELEMENT die (#PCDATA)* >",
   t!"<!ATTLIST die ",
   t!"   x_offset CDATA #IMPLIED",
   t!"   color CDATA #IMPLIED",
   t!"   image CDATA #IMPLIED",
   t!"   flip CDATA #IMPLIED",
   t!"   height CDATA #IMPLIED",
   t!"   width CDATA #IMPLIED",
   t!"   y_offset CDATA #IMPLIED",
   t!"   background CDATA #IMPLIED",
   t!"   y CDATA #IMPLIED",
   t!"   x CDATA #IMPLIED",
   t!"   font CDATA #IMPLIED",
   t!">"],
  [t!"<!ELEMENT chip (#PCDATA)* >",
   t!"<!ATTLIST chip ",
   t!"   x_offset CDATA #IMPLIED",
   t!"   color CDATA #IMPLIED",
   t!"   image CDATA #IMPLIED",
   t!"   flip CDATA #IMPLIED",
   t!"   height CDATA #IMPLIED",
   t!"   width CDATA #IMPLIED",
   t!"   y_offset CDATA #IMPLIED",
   t!"   background CDATA #IMPLIED",
   t!"   y CDATA #IMPLIED",
   t!"   x CDATA #IMPLIED",
   t!"   font CDATA #IMPLIED",
   t!">"],
  [t!"<!ELEMENT cubeholder (#PCDATA|cube|chip)* >",
   t!"<!ATTLIST cubeholder ",
   t!"   color CDATA #IMPLIED",
   t!"   image CDATA #IMPLIED",
   t!"   flip CDATA #IMPLIED",
   t!"   height CDATA #IMPLIED",
   t!"   width CDATA #IMPLIED",
   t!"   background CDATA #IMPLIED",
   t!"   y CDATA #IMPLIED",
   t!"   x CDATA #IMPLIED",
   t!"   font CDATA #IMPLIED",
   t!">"],
  [t!"<!ELEMENT field (#PCDATA|die|cube|chip)* >",
   t!"<!ATTLIST field ",
   t!"   player CDATA #IMPLIED",
   t!"   color CDATA #IMPLIED",
   t!"   image CDATA #IMPLIED",
   t!"   flip CDATA #IMPLIED",
   t!"   height CDATA #IMPLIED",
   t!"   width CDATA #IMPLIED",
   t!"   background CDATA #IMPLIED",
   t!"   y CDATA #IMPLIED",
   t!"   x CDATA #IMPLIED",
   t!"   font CDATA #IMPLIED",
   t!">"],
  [t!"<!ELEMENT length (#PCDATA)* >",
   t!"<!ATTLIST length ",
   t!"   color CDATA #IMPLIED",
   t!"   image CDATA #IMPLIED",
   t!"   flip CDATA #IMPLIED",
   t!"   height CDATA #IMPLIED",
   t!"   width CDATA #IMPLIED",
   t!"   background CDATA #IMPLIED",
   t!"   y CDATA #IMPLIED",
   t!"   x CDATA #IMPLIED",
   t!"   font CDATA #IMPLIED",
   t!">"],
  [t!"<!ELEMENT score (#PCDATA)* >",
   t!"<!ATTLIST score ",
   t!"   player CDATA #IMPLIED",
   t!"   color CDATA #IMPLIED",
   t!"   image CDATA #IMPLIED",
   t!"   flip CDATA #IMPLIED",
   t!"   height CDATA #IMPLIED",
   t!"   width CDATA #IMPLIED",
   t!"   background CDATA #IMPLIED",
   t!"   y CDATA #IMPLIED",
   t!"   x CDATA #IMPLIED",
   t!"   font CDATA #IMPLIED",
   t!">"],
  [t!"<!ELEMENT board (match|position)* >",
   t!"<!ATTLIST board ",
   t!"   color CDATA #IMPLIED",
   t!"   image CDATA #IMPLIED",
   t!"   flip CDATA #IMPLIED",
   t!"   height CDATA #IMPLIED",
   t!"   width CDATA #IMPLIED",
   t!"   background CDATA #IMPLIED",
   t!"   y CDATA #IMPLIED",
   t!"   x CDATA #IMPLIED",
   t!"   font CDATA #IMPLIED",
   t!">"],
  [t!"<!ELEMENT home (#PCDATA|cube|chequer)* >",
   t!"<!ATTLIST home ",
   t!"   player CDATA #IMPLIED",
   t!"   color CDATA #IMPLIED",
   t!"   image CDATA #IMPLIED",
   t!"   flip CDATA #IMPLIED",
   t!"   height CDATA #IMPLIED",
   t!"   width CDATA #IMPLIED",
   t!"   background CDATA #IMPLIED",
   t!"   y CDATA #IMPLIED",
   t!"   x CDATA #IMPLIED",
   t!"   font CDATA #IMPLIED",
   t!"   fill CDATA #IMPLIED",
   t!">"],
  [t!"<!ELEMENT action (#PCDATA)* >",
   t!"<!ATTLIST action ",
   t!"   player CDATA #IMPLIED",
   t!"   color CDATA #IMPLIED",
   t!"   image CDATA #IMPLIED",
   t!"   flip CDATA #IMPLIED",
   t!"   height CDATA #IMPLIED",
   t!"   width CDATA #IMPLIED",
   t!"   background CDATA #IMPLIED",
   t!"   y CDATA #IMPLIED",
   t!"   x CDATA #IMPLIED",
   t!"   font CDATA #IMPLIED",
   t!">"],
  [t!"<!ELEMENT position (cubeholder|field|home|bar|point)* >",
   t!"<!ATTLIST position ",
   t!"   color CDATA #IMPLIED",
   t!"   image CDATA #IMPLIED",
   t!"   flip CDATA #IMPLIED",
   t!"   height CDATA #IMPLIED",
   t!"   width CDATA #IMPLIED",
   t!"   background CDATA #IMPLIED",
   t!"   y CDATA #IMPLIED",
   t!"   x CDATA #IMPLIED",
   t!"   font CDATA #IMPLIED",
   t!">"],
  [t!"<!ELEMENT crawford (#PCDATA)* >",
   t!"<!ATTLIST crawford ",
   t!"   color CDATA #IMPLIED",
   t!"   image CDATA #IMPLIED",
   t!"   flip CDATA #IMPLIED",
   t!"   height CDATA #IMPLIED",
   t!"   width CDATA #IMPLIED",
   t!"   background CDATA #IMPLIED",
   t!"   y CDATA #IMPLIED",
   t!"   x CDATA #IMPLIED",
   t!"   font CDATA #IMPLIED",
   t!">"],
  [t!"<!ELEMENT match (action|length|crawford|score)* >",
   t!"<!ATTLIST match ",
   t!"   color CDATA #IMPLIED",
   t!"   image CDATA #IMPLIED",
   t!"   flip CDATA #IMPLIED",
   t!"   height CDATA #IMPLIED",
   t!"   width CDATA #IMPLIED",
   t!"   background CDATA #IMPLIED",
   t!"   y CDATA #IMPLIED",
   t!"   x CDATA #IMPLIED",
   t!"   font CDATA #IMPLIED",
   t!">"]]

/-- The model writes the file from the declarations `shippedDtd`. -/
example : shippedDtd.map Decl.text = dtdBlocks.map (List.flatMap (· ++ t!"\n")) := by decide +kernel

end Bglib.Check
