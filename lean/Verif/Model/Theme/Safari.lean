import Verif.Model.Css
/-
The style sheet `bglib/image/resource/safari/default.css`, all 256 lines, as `readlines` gives them.
-/
namespace Bglib.Img.Safari
open Bglib Bglib.Img

/-- The path of the file. -/
def path : Text := t!"bglib/image/resource/safari/default.css"

/-- Lines 1 to 32 of safari/default.css. -/
def lines0 : List Text := [
  t!"board {x: 0; y: 0; width: 341; height: 232; background: red;}\n",
  t!"board {font:uri(\"DejaVuLGCSans-Bold.ttf\")}\n",
  t!"\n",
  t!"match {x: 291; y: 0; width: 100; height: 232}\n",
  t!"length {x: 316; y: 93; width: 25; height: 46}\n",
  t!"length:data(0) {image: uri(\"score_0.jpg\")}\n",
  t!"length:data(1) {image: uri(\"score_1.jpg\")}\n",
  t!"length:data(2) {image: uri(\"score_2.jpg\")}\n",
  t!"length:data(3) {image: uri(\"score_3.jpg\")}\n",
  t!"length:data(4) {image: uri(\"score_4.jpg\")}\n",
  t!"length:data(5) {image: uri(\"score_5.jpg\")}\n",
  t!"length:data(6) {image: uri(\"score_6.jpg\")}\n",
  t!"length:data(7) {image: uri(\"score_7.jpg\")}\n",
  t!"length:data(8) {image: uri(\"score_8.jpg\")}\n",
  t!"length:data(9) {image: uri(\"score_9.jpg\")}\n",
  t!"length:data(10) {image: uri(\"score_10.jpg\")}\n",
  t!"length:data(11) {image: uri(\"score_11.jpg\")}\n",
  t!"length:data(12) {image: uri(\"score_12.jpg\")}\n",
  t!"length:data(13) {image: uri(\"score_13.jpg\")}\n",
  t!"length:data(14) {image: uri(\"score_14.jpg\")}\n",
  t!"length:data(15) {image: uri(\"score_15.jpg\")}\n",
  t!"length:data(16) {image: uri(\"score_16.jpg\")}\n",
  t!"length:data(17) {image: uri(\"score_17.jpg\")}\n",
  t!"length:data(18) {image: uri(\"score_18.jpg\")}\n",
  t!"length:data(19) {image: uri(\"score_19.jpg\")}\n",
  t!"length:data(20) {image: uri(\"score_20.jpg\")}\n",
  t!"length:data(21) {image: uri(\"score_21.jpg\")}\n",
  t!"length:data(22) {image: uri(\"score_22.jpg\")}\n",
  t!"length:data(23) {image: uri(\"score_23.jpg\")}\n",
  t!"length:data(24) {image: uri(\"score_24.jpg\")}\n",
  t!"length:data(25) {image: uri(\"score_25.jpg\")}\n",
  t!"\n"]

/-- Lines 33 to 64 of safari/default.css. -/
def lines1 : List Text := [
  t!"crawford:data(True) {image: uri(\"crawford.jpg\")}\n",
  t!"crawford:data(False) {image: uri(\"score_template.jpg\")}\n",
  t!"crawford {x: 291; y: 93; width: 25; height: 46}\n",
  t!"\n",
  t!"\n",
  t!"score {width: 50; height: 93}\n",
  t!"score[player=you] {x: 291; y:139}\n",
  t!"score[player=him] {x: 291; y: 0 }\n",
  t!"score:data(0) {image: uri(\"score_0.jpg\")}\n",
  t!"score:data(1) {image: uri(\"score_1.jpg\")}\n",
  t!"score:data(2) {image: uri(\"score_2.jpg\")}\n",
  t!"score:data(3) {image: uri(\"score_3.jpg\")}\n",
  t!"score:data(4) {image: uri(\"score_4.jpg\")}\n",
  t!"score:data(5) {image: uri(\"score_5.jpg\")}\n",
  t!"score:data(6) {image: uri(\"score_6.jpg\")}\n",
  t!"score:data(7) {image: uri(\"score_7.jpg\")}\n",
  t!"score:data(8) {image: uri(\"score_8.jpg\")}\n",
  t!"score:data(9) {image: uri(\"score_9.jpg\")}\n",
  t!"score:data(10) {image: uri(\"score_10.jpg\")}\n",
  t!"score:data(11) {image: uri(\"score_11.jpg\")}\n",
  t!"score:data(12) {image: uri(\"score_12.jpg\")}\n",
  t!"score:data(13) {image: uri(\"score_13.jpg\")}\n",
  t!"score:data(14) {image: uri(\"score_14.jpg\")}\n",
  t!"score:data(15) {image: uri(\"score_15.jpg\")}\n",
  t!"score:data(16) {image: uri(\"score_16.jpg\")}\n",
  t!"score:data(17) {image: uri(\"score_17.jpg\")}\n",
  t!"score:data(18) {image: uri(\"score_18.jpg\")}\n",
  t!"score:data(19) {image: uri(\"score_19.jpg\")}\n",
  t!"score:data(20) {image: uri(\"score_20.jpg\")}\n",
  t!"score:data(21) {image: uri(\"score_21.jpg\")}\n",
  t!"score:data(22) {image: uri(\"score_22.jpg\")}\n",
  t!"score:data(23) {image: uri(\"score_23.jpg\")}\n"]

/-- Lines 65 to 96 of safari/default.css. -/
def lines2 : List Text := [
  t!"score:data(24) {image: uri(\"score_24.jpg\")}\n",
  t!"score:data(25) {image: uri(\"score_25.jpg\")}\n",
  t!"\n",
  t!"\n",
  t!"action{width: 25; height: 26; x:0; y:103 ; background: white}\n",
  t!"action[player=you] {image: uri(\"action_white.jpg\") }\n",
  t!"action[player=him] {image: uri(\"action_green.jpg\") }\n",
  t!"player {width:0; height: 0}\n",
  t!"player[player=you]{x:0; y:0}\n",
  t!"player[player=him]{x:0; y:0}\n",
  t!"\n",
  t!"\n",
  t!"position {x: 0; y: 0; width: 291; height: 232; image: uri(\"position.jpg\")}\n",
  t!"point        {width: 18; height:88}\n",
  t!"point:data(1) { x: 248 ; y: 139 }\n",
  t!"point:data(2) { x: 230 ; y: 139 }\n",
  t!"point:data(3) { x: 212 ; y: 139 }\n",
  t!"point:data(4) { x: 194 ; y: 139 }\n",
  t!"point:data(5) { x: 176 ; y: 139 }\n",
  t!"point:data(6) { x: 158 ; y: 139 }\n",
  t!"point:data(7) { x: 115 ; y: 139 }\n",
  t!"point:data(8) { x:  97 ; y: 139 }\n",
  t!"point:data(9) { x:  79 ; y: 139 }\n",
  t!"point:data(10) {x:  61 ; y: 139 }\n",
  t!"point:data(11) {x:  43 ; y: 139 }\n",
  t!"point:data(12) {x:  25 ; y: 139 }\n",
  t!"point:data(13) {x:  25 ; y:   5 ; flip:  True  }\n",
  t!"point:data(14) {x:  43 ; y:   5 ; flip:  True  }\n",
  t!"point:data(15) {x:  61 ; y:   5 ; flip:  True  }\n",
  t!"point:data(16) {x:  79 ; y:   5 ; flip:  True  }\n",
  t!"point:data(17) {x:  97 ; y:   5 ; flip:  True  }\n",
  t!"point:data(18) {x: 115 ; y:   5 ; flip:  True  }\n"]

/-- Lines 97 to 128 of safari/default.css. -/
def lines3 : List Text := [
  t!"point:data(19) {x: 158 ; y:   5 ; flip:  True  }\n",
  t!"point:data(20) {x: 176 ; y:   5 ; flip:  True  }\n",
  t!"point:data(21) {x: 194 ; y:   5 ; flip:  True  }\n",
  t!"point:data(22) {x: 212 ; y:   5 ; flip:  True  }\n",
  t!"point:data(23) {x: 230 ; y:   5 ; flip:  True  }\n",
  t!"point:data(24) {x: 248 ; y:   5 ; flip:  True  }\n",
  t!"point[parity=odd]  { image: uri(\"odd-none.jpg\") } \n",
  t!"point[parity=even] { image: uri(\"even-none.jpg\") } \n",
  t!"\n",
  t!"bar {width: 25; height: 111}\n",
  t!"bar[player=him] { image: uri(\"bar-none.jpg\")} \n",
  t!"bar[player=you] { image: uri(\"bar-none.jpg\")} \n",
  t!"bar[player=him] {x:133; y: 5}\n",
  t!"bar[player=you] {x:133; y:116}\n",
  t!"\n",
  t!"cubeholder {width: 25 ;height: 30; image:uri(\"cubeholder.jpg\"); x: 266; y: 101}\n",
  t!"\n",
  t!"home {width: 25 ;height: 101}\n",
  t!"home[player=you] {x: 266; y: 131; image:uri(\"your-home.jpg\")}\n",
  t!"home[player=him] {x: 266; y: 0; image:uri(\"his-home.jpg\")}\n",
  t!"\n",
  t!"\n",
  t!"field {width: 108; height: 46; image: uri(\"field.jpg\")} \n",
  t!"field[player=you] {x: 158;y: 93}\n",
  t!"field[player=him] {x: 25 ;y: 93}\n",
  t!"\n",
  t!"cubeholder cube {x: 266 ; y: 105}\n",
  t!"\n",
  t!"\n",
  t!"field[player=you] die[id=left] {x: 176; y: 95}\n",
  t!"field[player=you] die[id=right] {x: 204; y: 95}\n",
  t!"field[player=him] die[id=left] {x: 43; y:95}\n"]

/-- Lines 129 to 160 of safari/default.css. -/
def lines4 : List Text := [
  t!"field[player=him] die[id=right] {x: 71; y:95}\n",
  t!"die:data(1) {image: uri(\"die_1.jpg\")}\n",
  t!"die:data(2) {image: uri(\"die_2.jpg\")}\n",
  t!"die:data(3) {image: uri(\"die_3.jpg\")}\n",
  t!"die:data(4) {image: uri(\"die_4.jpg\")}\n",
  t!"die:data(5) {image: uri(\"die_5.jpg\")}\n",
  t!"die:data(6) {image: uri(\"die_6.jpg\")}\n",
  t!"die {width: 16; height: 16}\n",
  t!"\n",
  t!"home[player=you] cube {x: 266; y: 197} \n",
  t!"home[player=him] cube {x: 266; y: 5}\n",
  t!"field[player=you] cube {x: 50; y: 100}\n",
  t!"field[player=him] cube {x: 180; y: 100}\n",
  t!"cube {width: 25; height: 25}\n",
  t!"cube:data(0) {image: uri(\"cube_0.jpg\")}\n",
  t!"cube:data(1) {image: uri(\"cube_1.jpg\")}\n",
  t!"cube:data(2) {image: uri(\"cube_2.jpg\")}\n",
  t!"cube:data(3) {image: uri(\"cube_3.jpg\")}\n",
  t!"cube:data(4) {image: uri(\"cube_4.jpg\")}\n",
  t!"cube:data(5) {image: uri(\"cube_5.jpg\")}\n",
  t!"\n",
  t!"field[player=you] resign {x: 157;y: 93; x_offset: 20; y_offset: 0}\n",
  t!"field[player=him] resign {x: 25 ;y: 93; x_offset: 20; y_offset: 0}\n",
  t!"resign {width: 25; height: 25; image: uri(\"chip.png\"})\n",
  t!"\n",
  t!"chequer {max_count:1 ; hide_count: True}\n",
  t!"\n",
  t!"point[parity=odd] chequer[player=you]:data(1)   {image: uri(\"odd-white-1.jpg\")} \n",
  t!"point[parity=odd] chequer[player=you]:data(2)   {image: uri(\"odd-white-2.jpg\")} \n",
  t!"point[parity=odd] chequer[player=you]:data(3)   {image: uri(\"odd-white-3.jpg\")} \n",
  t!"point[parity=odd] chequer[player=you]:data(4)   {image: uri(\"odd-white-4.jpg\")} \n",
  t!"point[parity=odd] chequer[player=you]:data(5)   {image: uri(\"odd-white-5.jpg\")} \n"]

/-- Lines 161 to 192 of safari/default.css. -/
def lines5 : List Text := [
  t!"point[parity=odd] chequer[player=you]:data(6)   {image: uri(\"odd-white-6.jpg\")} \n",
  t!"point[parity=odd] chequer[player=you]:data(7)   {image: uri(\"odd-white-7.jpg\")} \n",
  t!"point[parity=odd] chequer[player=you]:data(8)   {image: uri(\"odd-white-8.jpg\")} \n",
  t!"point[parity=odd] chequer[player=you]:data(9)   {image: uri(\"odd-white-9.jpg\")} \n",
  t!"point[parity=odd] chequer[player=you]:data(10)  {image: uri(\"odd-white-10.jpg\")} \n",
  t!"point[parity=odd] chequer[player=you]:data(11)  {image: uri(\"odd-white-11.jpg\")} \n",
  t!"point[parity=odd] chequer[player=you]:data(12)  {image: uri(\"odd-white-12.jpg\")} \n",
  t!"point[parity=odd] chequer[player=you]:data(13)  {image: uri(\"odd-white-13.jpg\")} \n",
  t!"point[parity=odd] chequer[player=you]:data(14)  {image: uri(\"odd-white-14.jpg\")} \n",
  t!"point[parity=odd] chequer[player=you]:data(15)  {image: uri(\"odd-white-15.jpg\")} \n",
  t!"\n",
  t!"point[parity=even] chequer[player=you]:data(1)  {image: uri(\"even-white-1.jpg\")} \n",
  t!"point[parity=even] chequer[player=you]:data(2)  {image: uri(\"even-white-2.jpg\")} \n",
  t!"point[parity=even] chequer[player=you]:data(3)  {image: uri(\"even-white-3.jpg\")} \n",
  t!"point[parity=even] chequer[player=you]:data(4)  {image: uri(\"even-white-4.jpg\")} \n",
  t!"point[parity=even] chequer[player=you]:data(5)  {image: uri(\"even-white-5.jpg\")} \n",
  t!"point[parity=even] chequer[player=you]:data(6)  {image: uri(\"even-white-6.jpg\")} \n",
  t!"point[parity=even] chequer[player=you]:data(7)  {image: uri(\"even-white-7.jpg\")} \n",
  t!"point[parity=even] chequer[player=you]:data(8)  {image: uri(\"even-white-8.jpg\")} \n",
  t!"point[parity=even] chequer[player=you]:data(9)  {image: uri(\"even-white-9.jpg\")} \n",
  t!"point[parity=even] chequer[player=you]:data(10) {image: uri(\"even-white-10.jpg\")} \n",
  t!"point[parity=even] chequer[player=you]:data(11) {image: uri(\"even-white-11.jpg\")} \n",
  t!"point[parity=even] chequer[player=you]:data(12) {image: uri(\"even-white-12.jpg\")} \n",
  t!"point[parity=even] chequer[player=you]:data(13) {image: uri(\"even-white-13.jpg\")} \n",
  t!"point[parity=even] chequer[player=you]:data(14) {image: uri(\"even-white-14.jpg\")} \n",
  t!"point[parity=even] chequer[player=you]:data(15) {image: uri(\"even-white-15.jpg\")} \n",
  t!"\n",
  t!"point[parity=odd] chequer[player=him]:data(1)   {image: uri(\"odd-green-1.jpg\")} \n",
  t!"point[parity=odd] chequer[player=him]:data(2)   {image: uri(\"odd-green-2.jpg\")} \n",
  t!"point[parity=odd] chequer[player=him]:data(3)   {image: uri(\"odd-green-3.jpg\")} \n",
  t!"point[parity=odd] chequer[player=him]:data(4)   {image: uri(\"odd-green-4.jpg\")} \n",
  t!"point[parity=odd] chequer[player=him]:data(5)   {image: uri(\"odd-green-5.jpg\")} \n"]

/-- Lines 193 to 224 of safari/default.css. -/
def lines6 : List Text := [
  t!"point[parity=odd] chequer[player=him]:data(6)   {image: uri(\"odd-green-6.jpg\")} \n",
  t!"point[parity=odd] chequer[player=him]:data(7)   {image: uri(\"odd-green-7.jpg\")} \n",
  t!"point[parity=odd] chequer[player=him]:data(8)   {image: uri(\"odd-green-8.jpg\")} \n",
  t!"point[parity=odd] chequer[player=him]:data(9)   {image: uri(\"odd-green-9.jpg\")} \n",
  t!"point[parity=odd] chequer[player=him]:data(10)  {image: uri(\"odd-green-10.jpg\")} \n",
  t!"point[parity=odd] chequer[player=him]:data(11)  {image: uri(\"odd-green-11.jpg\")} \n",
  t!"point[parity=odd] chequer[player=him]:data(12)  {image: uri(\"odd-green-12.jpg\")} \n",
  t!"point[parity=odd] chequer[player=him]:data(13)  {image: uri(\"odd-green-13.jpg\")} \n",
  t!"point[parity=odd] chequer[player=him]:data(14)  {image: uri(\"odd-green-14.jpg\")} \n",
  t!"point[parity=odd] chequer[player=him]:data(15)  {image: uri(\"odd-green-15.jpg\")} \n",
  t!"\n",
  t!"point[parity=even] chequer[player=him]:data(1)  {image: uri(\"even-green-1.jpg\")} \n",
  t!"point[parity=even] chequer[player=him]:data(2)  {image: uri(\"even-green-2.jpg\")} \n",
  t!"point[parity=even] chequer[player=him]:data(3)  {image: uri(\"even-green-3.jpg\")} \n",
  t!"point[parity=even] chequer[player=him]:data(4)  {image: uri(\"even-green-4.jpg\")} \n",
  t!"point[parity=even] chequer[player=him]:data(5)  {image: uri(\"even-green-5.jpg\")} \n",
  t!"point[parity=even] chequer[player=him]:data(6)  {image: uri(\"even-green-6.jpg\")} \n",
  t!"point[parity=even] chequer[player=him]:data(7)  {image: uri(\"even-green-7.jpg\")} \n",
  t!"point[parity=even] chequer[player=him]:data(8)  {image: uri(\"even-green-8.jpg\")} \n",
  t!"point[parity=even] chequer[player=him]:data(9)  {image: uri(\"even-green-9.jpg\")} \n",
  t!"point[parity=even] chequer[player=him]:data(10) {image: uri(\"even-green-10.jpg\")} \n",
  t!"point[parity=even] chequer[player=him]:data(11) {image: uri(\"even-green-11.jpg\")} \n",
  t!"point[parity=even] chequer[player=him]:data(12) {image: uri(\"even-green-12.jpg\")} \n",
  t!"point[parity=even] chequer[player=him]:data(13) {image: uri(\"even-green-13.jpg\")} \n",
  t!"point[parity=even] chequer[player=him]:data(14) {image: uri(\"even-green-14.jpg\")} \n",
  t!"point[parity=even] chequer[player=him]:data(15) {image: uri(\"even-green-15.jpg\")} \n",
  t!"\n",
  t!"\n",
  t!"\n",
  t!"\n",
  t!"bar[player=him] chequer[player=him]:data(1)   {image: uri(\"bar-green-1.jpg\")} \n",
  t!"bar[player=him] chequer[player=him]:data(2)   {image: uri(\"bar-green-2.jpg\")} \n"]

/-- Lines 225 to 256 of safari/default.css. -/
def lines7 : List Text := [
  t!"bar[player=him] chequer[player=him]:data(3)   {image: uri(\"bar-green-3.jpg\")} \n",
  t!"bar[player=him] chequer[player=him]:data(4)   {image: uri(\"bar-green-4.jpg\")} \n",
  t!"bar[player=him] chequer[player=him]:data(5)   {image: uri(\"bar-green-5.jpg\")} \n",
  t!"bar[player=him] chequer[player=him]:data(6)   {image: uri(\"bar-green-6.jpg\")} \n",
  t!"bar[player=him] chequer[player=him]:data(7)   {image: uri(\"bar-green-7.jpg\")} \n",
  t!"bar[player=him] chequer[player=him]:data(8)   {image: uri(\"bar-green-8.jpg\")} \n",
  t!"bar[player=him] chequer[player=him]:data(9)   {image: uri(\"bar-green-9.jpg\")} \n",
  t!"bar[player=him] chequer[player=him]:data(10)  {image: uri(\"bar-green-10.jpg\")} \n",
  t!"bar[player=him] chequer[player=him]:data(11)  {image: uri(\"bar-green-11.jpg\")} \n",
  t!"bar[player=him] chequer[player=him]:data(12)  {image: uri(\"bar-green-12.jpg\")} \n",
  t!"bar[player=him] chequer[player=him]:data(13)  {image: uri(\"bar-green-13.jpg\")} \n",
  t!"bar[player=him] chequer[player=him]:data(14)  {image: uri(\"bar-green-14.jpg\")} \n",
  t!"bar[player=him] chequer[player=him]:data(15)  {image: uri(\"bar-green-15.jpg\")} \n",
  t!"\n",
  t!"\n",
  t!"bar[player=you] chequer[player=you]:data(1)   {image: uri(\"bar-white-1.jpg\")} \n",
  t!"bar[player=you] chequer[player=you]:data(2)   {image: uri(\"bar-white-2.jpg\")} \n",
  t!"bar[player=you] chequer[player=you]:data(3)   {image: uri(\"bar-white-3.jpg\")} \n",
  t!"bar[player=you] chequer[player=you]:data(4)   {image: uri(\"bar-white-4.jpg\")} \n",
  t!"bar[player=you] chequer[player=you]:data(5)   {image: uri(\"bar-white-5.jpg\")} \n",
  t!"bar[player=you] chequer[player=you]:data(6)   {image: uri(\"bar-white-6.jpg\")} \n",
  t!"bar[player=you] chequer[player=you]:data(7)   {image: uri(\"bar-white-7.jpg\")} \n",
  t!"bar[player=you] chequer[player=you]:data(8)   {image: uri(\"bar-white-8.jpg\")} \n",
  t!"bar[player=you] chequer[player=you]:data(9)   {image: uri(\"bar-white-9.jpg\")} \n",
  t!"bar[player=you] chequer[player=you]:data(10)  {image: uri(\"bar-white-10.jpg\")} \n",
  t!"bar[player=you] chequer[player=you]:data(11)  {image: uri(\"bar-white-11.jpg\")} \n",
  t!"bar[player=you] chequer[player=you]:data(12)  {image: uri(\"bar-white-12.jpg\")} \n",
  t!"bar[player=you] chequer[player=you]:data(13)  {image: uri(\"bar-white-13.jpg\")} \n",
  t!"bar[player=you] chequer[player=you]:data(14)  {image: uri(\"bar-white-14.jpg\")} \n",
  t!"bar[player=you] chequer[player=you]:data(15)  {image: uri(\"bar-white-15.jpg\")} \n",
  t!"\n",
  t!"\n"]

/-- The whole file. -/
def lines : List Text := lines0 ++ (lines1 ++ (lines2 ++ (lines3 ++ (lines4 ++ (lines5 ++ (lines6 ++ (lines7)))))))

end Bglib.Img.Safari
