import Verif.Model.Css
/-
The style sheet `bglib/image/resource/matrix/default.css`, all 103 lines, as `readlines` gives them.
-/
namespace Bglib.Img.Matrix
open Bglib Bglib.Img

/-- The path of the file. -/
def path : Text := t!"bglib/image/resource/matrix/default.css"

/-- Lines 1 to 32 of matrix/default.css. -/
def lines0 : List Text := [
  t!"board {x: 0; y: 0; width: 1000; height: 800}\n",
  t!"board {font:uri(\"DejaVuLGCSans-Bold.ttf\")}\n",
  t!"\n",
  t!"match {x: 800; y: 0; width: 200; height: 1000}\n",
  t!"length {x: 900; y: 400; width: 100; height: 200}\n",
  t!"\n",
  t!"crawford {x: 800; y: 400; width: 100; height: 200}\n",
  t!"\n",
  t!"score {width: 200; height: 300}\n",
  t!"score[player=you] {x: 800; y:500; color: #3cb7ff}\n",
  t!"score[player=him] {x: 800; y:0; color: #fd4993}\n",
  t!"\n",
  t!"action{width: 100; height: 100;}\n",
  t!"action[player=you] {x: 830; y:670; image: uri(\"ind_blue_r.png\") }\n",
  t!"action[player=him] {x: 830; y:30; image: uri(\"ind_red_l.png\") }\n",
  t!"player {width:0; height: 0}\n",
  t!"player[player=you]{x:0; y:0}\n",
  t!"player[player=him]{x:0; y:0}\n",
  t!"\n",
  t!"\n",
  t!"position {x: 0; y: 0; width: 800; height: 800; image: uri(\"position.png\")}\n",
  t!"point        {width: 100; height:100}\n",
  t!"point:data(1) { x: 560 ; y: 560 }\n",
  t!"point:data(2) { x: 460 ; y: 560 }\n",
  t!"point:data(3) { x: 360 ; y: 560 }\n",
  t!"point:data(4) { x: 260 ; y: 560 }\n",
  t!"point:data(5) { x: 160 ; y: 560 }\n",
  t!"point:data(6) { x: 160 ; y: 460 }\n",
  t!"point:data(7) { x: 260 ; y: 460 }\n",
  t!"point:data(8) { x: 360 ; y: 460 }\n",
  t!"point:data(9) { x: 460 ; y: 460 }\n",
  t!"point:data(10) {x: 560 ; y: 460 }\n"]

/-- Lines 33 to 64 of matrix/default.css. -/
def lines1 : List Text := [
  t!"point:data(11) {x: 560 ; y: 360 }\n",
  t!"point:data(12) {x: 460 ; y: 360 }\n",
  t!"\n",
  t!"\n",
  t!"point:data(13) {x: 260 ; y: 360 }\n",
  t!"point:data(14) {x: 160 ; y: 360 }\n",
  t!"point:data(15) {x: 160 ; y: 260 }\n",
  t!"point:data(16) {x: 260 ; y: 260 }\n",
  t!"point:data(17) {x: 360 ; y: 260 }\n",
  t!"point:data(18) {x: 460 ; y: 260 }\n",
  t!"point:data(19) {x: 560 ; y: 260 }\n",
  t!"point:data(20) {x: 560 ; y: 160 }\n",
  t!"point:data(21) {x: 460 ; y: 160 }\n",
  t!"point:data(22) {x: 360 ; y: 160 }\n",
  t!"point:data(23) {x: 260 ; y: 160 }\n",
  t!"point:data(24) {x: 160 ; y: 160 }\n",
  t!"\n",
  t!"bar {width: 25; height: 111}\n",
  t!"bar[player=him] {x:160; y: 10}\n",
  t!"bar[player=you] {x:160; y:770}\n",
  t!"\n",
  t!"\n",
  t!"home {width: 500;height: 70}\n",
  t!"home[player=you] {x: 160; y: 670}\n",
  t!"home[player=him] {x: 160; y: 60}\n",
  t!"\n",
  t!"\n",
  t!"field {width: 100; height: 650}\n",
  t!"field[player=him] {x: 30;y: 30}\n",
  t!"field[player=you] {x: 670;y: 30}\n",
  t!"\n",
  t!"\n"]

/-- Lines 65 to 96 of matrix/default.css. -/
def lines2 : List Text := [
  t!"die {width: 30; height: 30}\n",
  t!"\n",
  t!"field[player=him] die[id=left] {x: 60; y:500}\n",
  t!"field[player=him] die[id=right] {x: 105; y:480}\n",
  t!"field[player=him] die:data(1) {image: uri(\"dice_red_1.png\")}\n",
  t!"field[player=him] die:data(2) {image: uri(\"dice_red_2.png\")}\n",
  t!"field[player=him] die:data(3) {image: uri(\"dice_red_3.png\")}\n",
  t!"field[player=him] die:data(4) {image: uri(\"dice_red_4.png\")}\n",
  t!"field[player=him] die:data(5) {image: uri(\"dice_red_5.png\")}\n",
  t!"field[player=him] die:data(6) {image: uri(\"dice_red_6.png\")}\n",
  t!"\n",
  t!"field[player=you] die[id=left] {x: 690; y: 260}\n",
  t!"field[player=you] die[id=right] {x: 735; y: 280}\n",
  t!"field[player=you] die:data(1) {image: uri(\"dice_blue_1.png\")}\n",
  t!"field[player=you] die:data(2) {image: uri(\"dice_blue_2.png\")}\n",
  t!"field[player=you] die:data(3) {image: uri(\"dice_blue_3.png\")}\n",
  t!"field[player=you] die:data(4) {image: uri(\"dice_blue_4.png\")}\n",
  t!"field[player=you] die:data(5) {image: uri(\"dice_blue_5.png\")}\n",
  t!"field[player=you] die:data(6) {image: uri(\"dice_blue_6.png\")}\n",
  t!"\n",
  t!"cubeholder {width: 100 ;height: 100; x: 360; y: 460}\n",
  t!"home[player=you] cube {x: 580; y: 680} \n",
  t!"home[player=him] cube {x: 580; y: 60}\n",
  t!"field[player=you] cube {x: 680; y: 360}\n",
  t!"field[player=him] cube {x: 50; y: 360}\n",
  t!"cubeholder cube {x: 360; y: 360}\n",
  t!"cube {width: 80; height: 80}\n",
  t!"\n",
  t!"field[player=you] chip {x: 157;y: 93; x-offset: 20; y-offset: 0}\n",
  t!"field[player=him] chip {x: 25 ;y: 93; x-offset: 20; y-offset: 0}\n",
  t!"chip {width: 25; height: 25;}\n",
  t!"\n"]

/-- Lines 97 to 103 of matrix/default.css. -/
def lines3 : List Text := [
  t!"chequer {max_count: 8}\n",
  t!"chequer[player=you] {width: 20; height:20; image:uri(\"checker_blue.png\")}\n",
  t!"chequer[player=him] {width: 20; height:20; image:uri(\"checker_red.png\")}\n",
  t!"point chequer {x_offset: 30; y_offset:0}\n",
  t!"point chequer {x_offset2: -90; y_offset2: 30}\n",
  t!"home chequer {x_offset: 30; y_offset:0 ; max_count: 15}\n",
  t!"\n"]

/-- The whole file. -/
def lines : List Text := lines0 ++ (lines1 ++ (lines2 ++ (lines3)))

end Bglib.Img.Matrix
