import Verif.Model.Css
/-
The style sheet `bglib/image/resource/deutsche/default.css`, all 108 lines, as `readlines` gives them.
-/
namespace Bglib.Img.Deutsche
open Bglib Bglib.Img

/-- The path of the file. -/
def path : Text := t!"bglib/image/resource/deutsche/default.css"

/-- Lines 1 to 32 of deutsche/default.css. -/
def lines0 : List Text := [
  t!"board {x: 0; y: 0; width: 341; height: 262; background: red}\n",
  t!"\n",
  t!"board {font:uri(\"ActionManShadedItalic.ttf\")}\n",
  t!"\n",
  t!"match {x: 291; y: 0; width: 50; height: 232; background:#181818}\n",
  t!"length {x: 316; y: 93; width: 25; height: 46 ; color:#cccccc}\n",
  t!"\n",
  t!"crawford {x: 291; y: 93; width: 25; height: 46; color:#cccccc}\n",
  t!"score {width: 50; height: 93}\n",
  t!"score[player=you] {x: 291; y:139; color: #d8c810}\n",
  t!"score[player=him] {x: 291; y: 0 ; color: #d01020}\n",
  t!"\n",
  t!"\n",
  t!"action{width: 341; height: 30; x:0; y:232 ; background: #181818}\n",
  t!"action[player=you] {color: #d8c810}\n",
  t!"action[player=him] {color: #d01020}\n",
  t!"\n",
  t!"\n",
  t!"player {width:0; height: 0}\n",
  t!"player[player=you]{x:0; y:0}\n",
  t!"player[player=him]{x:0; y:0}\n",
  t!"\n",
  t!"\n",
  t!"position {x: 0; y: 0; width: 291; height: 232; background: #181818}\n",
  t!"\n",
  t!"point {width: 18; height:88}\n",
  t!"\n",
  t!"point[parity=odd] {color: #080808}\n",
  t!"point[parity=even] {color: #383838}\n",
  t!"point:data(1) { x: 248 ; y: 139 }\n",
  t!"point:data(2) { x: 230 ; y: 139 }\n",
  t!"point:data(3) { x: 212 ; y: 139 }\n"]

/-- Lines 33 to 64 of deutsche/default.css. -/
def lines1 : List Text := [
  t!"point:data(4) { x: 194 ; y: 139 }\n",
  t!"point:data(5) { x: 176 ; y: 139 }\n",
  t!"point:data(6) { x: 158 ; y: 139 }\n",
  t!"point:data(7) { x: 115 ; y: 139 }\n",
  t!"point:data(8) { x:  97 ; y: 139 }\n",
  t!"point:data(9) { x:  79 ; y: 139 }\n",
  t!"point:data(10) {x:  61 ; y: 139 }\n",
  t!"point:data(11) {x:  43 ; y: 139 }\n",
  t!"point:data(12) {x:  25 ; y: 139 }\n",
  t!"point:data(13) {x:  25 ; y:   5 ; flip:  True  }\n",
  t!"point:data(14) {x:  43 ; y:   5 ; flip:  True  }\n",
  t!"point:data(15) {x:  61 ; y:   5 ; flip:  True  }\n",
  t!"point:data(16) {x:  79 ; y:   5 ; flip:  True  }\n",
  t!"point:data(17) {x:  97 ; y:   5 ; flip:  True  }\n",
  t!"point:data(18) {x: 115 ; y:   5 ; flip:  True  }\n",
  t!"point:data(19) {x: 158 ; y:   5 ; flip:  True  }\n",
  t!"point:data(20) {x: 176 ; y:   5 ; flip:  True  }\n",
  t!"point:data(21) {x: 194 ; y:   5 ; flip:  True  }\n",
  t!"point:data(22) {x: 212 ; y:   5 ; flip:  True  }\n",
  t!"point:data(23) {x: 230 ; y:   5 ; flip:  True  }\n",
  t!"point:data(24) {x: 248 ; y:   5 ; flip:  True  }\n",
  t!"\n",
  t!"bar {width: 25; height: 112; background: #083008}\n",
  t!"bar[player=you] {x:133; y:116}\n",
  t!"bar[player=him] {x:133; y: 5}\n",
  t!"\n",
  t!"cubeholder {width: 25 ;height: 224; x: 0; y: 5 ;background: #083008}\n",
  t!"\n",
  t!"home {width: 25 ;height: 112}\n",
  t!"home[player=you] {x: 266; y: 116 ; background: #083008}\n",
  t!"home[player=him] {x: 266; y: 5; background: #083008; flip:  True  }\n",
  t!"\n"]

/-- Lines 65 to 96 of deutsche/default.css. -/
def lines2 : List Text := [
  t!"field {width: 108; height: 46; text: Backgammonbase ; color:#383838}\n",
  t!"field {font:uri(\"ActionManShadedItalic.ttf\")}\n",
  t!"field[player=you] {x: 158;y: 93}\n",
  t!"field[player=him] {x: 25 ;y: 93}\n",
  t!"\n",
  t!"#field[player=you] die[id=left] {x: 176; y: 95;  color:#d01020; background:#d8c810}\n",
  t!"#field[player=you] die[id=right] {x: 204; y: 95; color:#d01020; background:#d8c810}\n",
  t!"field[player=you] die[id=left] {x: 176; y: 95;  color:black; background:#d8c810}\n",
  t!"field[player=you] die[id=right] {x: 204; y: 95; color:black; background:#d8c810}\n",
  t!"#field[player=him] die[id=left] {x: 43; y:95 ;   color:#d8c810; background:#d01020}\n",
  t!"#field[player=him] die[id=right] {x: 71; y:95 ;  color:#d8c810; background:#d01020}\n",
  t!"field[player=him] die[id=left] {x: 43; y:95 ;   color:black; background:#d01020}\n",
  t!"field[player=him] die[id=right] {x: 71; y:95 ;  color:black; background:#d01020}\n",
  t!"\n",
  t!"\n",
  t!"\n",
  t!"\n",
  t!"die {width: 16; height: 16; diestyle:dot; eyesize:3}\n",
  t!"\n",
  t!"\n",
  t!"cube {width: 25; height: 25; background: #cccccc; color: black; initialCube: 64}\n",
  t!"cubeholder cube {x: 0 ; y: 105}\n",
  t!"home[player=you] cube {x: 0; y: 197} \n",
  t!"home[player=him] cube {x: 0; y: 5; flip=True}\n",
  t!"field[player=you] cube {x: 50; y: 100}\n",
  t!"field[player=him] cube {x: 180; y: 100}\n",
  t!"cubeholder cube {x: 0; y: 105}\n",
  t!"\n",
  t!"field[player=you] resign {x: 157;y: 93}\n",
  t!"field[player=him] resign {x: 25 ;y: 93}\n",
  t!"resign {width: 100; height: 46; color: gold}\n",
  t!"\n"]

/-- Lines 97 to 108 of deutsche/default.css. -/
def lines3 : List Text := [
  t!"top_frame {x:0; y:0; height:5; width:291; background:#083008}\n",
  t!"bottom_frame {x:0; y:227; height:5; width:291; background:#083008 }\n",
  t!"\n",
  t!"chequer {width:16; height:16; y:210 ; x_offset: 0; y_offset: -18; max_count:5}\n",
  t!"point[flip=True] chequer {y:6 ;y_offset: 18}\n",
  t!"home[player=him] chequer{x:269; y:90 ;y_offset: -18}\n",
  t!"home[player=you] chequer{x:269; y:125 ;y_offset: 18}\n",
  t!"bar[player=him] chequer{x:137; y:80 ;y_offset: -18; max_count:4}\n",
  t!"bar[player=you] chequer{x:137; y:135 ;y_offset: 18; max_count:4}\n",
  t!"chequer[player=you] {color: #d8c810}\n",
  t!"chequer[player=him] {color: #d01020}\n",
  t!"\n"]

/-- The whole file. -/
def lines : List Text := lines0 ++ (lines1 ++ (lines2 ++ (lines3)))

end Bglib.Img.Deutsche
