import Verif.Check.Model
/-
Tests of `model/board_test.py`, `boardeditor_test.py` and `move_test.py`; written by `validate/model_tests.py`.
-/
namespace Bglib.Check

def board_find_src_of_bearoff_with_1_test : List TestStep := [
  .start {  },
  .holds fun b => b.findSrcOfBearoffWith 5 == .ok none,
  .holds fun b => b.findSrcOfBearoffWith 2 == .ok none]

def board_find_src_of_bearoff_with_2_test : List TestStep := [
  .start { position := ([0, 5, 0, 3, 4, 0, 0, 0, 0, 0, 0, 0, 0, 0, 0, 0, 0, 0, 0, 0, 0, 0, 0, 0, 0], [0, 0, 0, 0, 0, 5, 0, 3, 0, 0, 0, 0, 5, 0, 0, 0, 0, 0, 0, 0, 0, 0, 0, 2, 0]) },
  .holds fun b => b.hasChequerToMove 4 == .ok true,
  .holds fun b => b.findSrcOfBearoffWith 5 == .ok (some 4),
  .holds fun b => b.hasChequerToMove 5 == .ok false,
  .holds fun b => b.findSrcOfBearoffWith 6 == .ok (some 4),
  .holds fun b => b.findSrcOfBearoffWith 2 == .ok (some 1),
  .holds fun b => b.hasChequerToMove 2 == .ok false,
  .holds fun b => b.findSrcOfBearoffWith 3 == .ok none]

def board_is_open_to_land_test : List TestStep := [
  .start {  },
  .holds fun b => b.isOpenToLand 0 == .ok false,
  .holds fun b => b.isOpenToLand 1 == .ok true]

def board_is_hitting_to_land_2_test : List TestStep := [
  .start {  },
  .holds fun b => b.isHittingToLand 0 == .ok false,
  .holds fun b => b.isHittingToLand 1 == .ok false]

def board_is_hitting_to_land_1_test : List TestStep := [
  .start { position := ([0, 5, 0, 3, 4, 0, 0, 0, 0, 0, 0, 0, 0, 0, 0, 0, 0, 0, 0, 0, 0, 0, 0, 0, 0], [0, 0, 0, 0, 0, 5, 0, 3, 0, 0, 0, 0, 5, 0, 0, 0, 0, 0, 0, 0, 0, 0, 0, 1, 1]) },
  .holds fun b => b.isHittingToLand 0 == .ok true]

def board_cube_owner_1_test : List TestStep := [
  .start {  },
  .holds fun b => b.cubeOwner == CENTER]

def board_cube_owner_2_test : List TestStep := [
  .start { cubeOwner := YOU },
  .holds fun b => b.cubeOwner == YOU]

def board_cube_in_logarithm_1_test : List TestStep := [
  .start {  },
  .holds fun b => b.cube == 0]

def board_cube_in_logarithm_2_test : List TestStep := [
  .start { cube := 3 },
  .holds fun b => b.cube == 3]

def boardeditor_flip_1_test : List TestStep := [
  .start {  },
  .act Board.flip]

def boardeditor_flip_2_test : List TestStep := [
  .start { cubeOwner := HIM, onAction := HIM, onInnerAction := YOU, doubled := true },
  .act Board.flip,
  .holds fun b => b.cubeOwner == YOU,
  .holds fun b => b.onAction == YOU,
  .holds fun b => b.onInnerAction == HIM,
  .holds fun b => b.doubled == true,
  .act Board.flip,
  .holds fun b => b.cubeOwner == HIM,
  .holds fun b => b.onAction == HIM,
  .holds fun b => b.onInnerAction == YOU,
  .holds fun b => b.doubled == true]

def boardeditor_flip_3_test : List TestStep := [
  .start { cubeOwner := HIM, onAction := HIM, onInnerAction := CENTER, doubled := false },
  .act Board.flip,
  .holds fun b => b.cubeOwner == YOU,
  .holds fun b => b.onAction == YOU,
  .holds fun b => b.onInnerAction == CENTER,
  .holds fun b => b.doubled == false]

def boardeditor_cube_owner_test : List TestStep := [
  .holds fun b => b.cubeOwner == CENTER,
  .edit fun b => { b with cubeOwner := YOU },
  .holds fun b => b.cubeOwner == YOU]

def boardeditor_default_value_test : List TestStep := [
  .holds fun b => b.onAction == YOU,
  .holds fun b => b.crawford == false,
  .holds fun b => b.gameState == NOT_STARTED,
  .holds fun b => b.onInnerAction == YOU,
  .holds fun b => b.doubled == false,
  .holds fun b => b.resignOffer == RESIGN_NONE,
  .holds fun b => b.rolled == (0, 0),
  .holds fun b => b.matchLength == 0,
  .holds fun b => b.score == (0, 0)]

def boardeditor_move_test : List TestStep := [
  .holds fun b => b.hasChequerToMove 23 == .ok true,
  .holds fun b => b.hasChequerToMove 24 == .ok false]

def boardeditor_make_partial_move_1_test : List TestStep := [
  .piece ⟨6, 12, 6, false⟩,
  .move,
  .holds fun b => b.position == ([0, 0, 0, 0, 0, 5, 1, 3, 0, 0, 0, 0, 4, 0, 0, 0, 0, 0, 0, 0, 0, 0, 0, 2, 0], [0, 0, 0, 0, 0, 5, 0, 3, 0, 0, 0, 0, 5, 0, 0, 0, 0, 0, 0, 0, 0, 0, 0, 2, 0])]

def boardeditor_make_partial_move_2_test : List TestStep := [
  .edit fun b => { b with position := ([0, 5, 0, 3, 4, 0, 0, 0, 0, 0, 0, 0, 0, 0, 0, 0, 0, 0, 0, 0, 0, 0, 0, 0, 0], [0, 0, 0, 0, 0, 5, 0, 3, 0, 0, 0, 0, 5, 0, 0, 0, 0, 0, 0, 0, 0, 0, 0, 1, 1]) },
  .piece ⟨1, 1, 0, true⟩,
  .move,
  .holds fun b => b.position == ([1, 4, 0, 3, 4, 0, 0, 0, 0, 0, 0, 0, 0, 0, 0, 0, 0, 0, 0, 0, 0, 0, 0, 0, 0], [0, 0, 0, 0, 0, 5, 0, 3, 0, 0, 0, 0, 5, 0, 0, 0, 0, 0, 0, 0, 0, 0, 0, 0, 2])]

def boardeditor_is_leagal_to_roll_test : List TestStep := [
  .holds fun b => b.isLegalToRoll YOU == false,
  .edit fun b => { b with gameState := ON_GOING },
  .holds fun b => b.isLegalToRoll YOU == true]

def boardeditor_double_test : List TestStep := [
  .holds fun b => b.doubled == false,
  .edit fun b => { b with gameState := ON_GOING },
  .holds fun b => b.onAction == YOU,
  .holds fun b => b.onInnerAction == YOU,
  .holds fun b => b.isCubeTakeOrPass YOU == false,
  .holds fun b => b.isCubeTakeOrPass HIM == false,
  .holds fun b => b.isToAcceptResign YOU == false,
  .holds fun b => b.isToAcceptResign HIM == false,
  .holds fun b => b.isLegalToRoll HIM == false,
  .holds fun b => b.isLegalToMove YOU == false,
  .holds fun b => b.isLegalToMove HIM == false,
  .holds fun b => b.isLegalToDouble YOU == .ok true,
  .holds fun b => b.isLegalToDouble HIM == .ok false,
  .act fun b => b.double YOU,
  .holds fun b => b.onAction == YOU,
  .holds fun b => b.onInnerAction == HIM,
  .holds fun b => b.doubled == true,
  .holds fun b => b.isCubeTakeOrPass YOU == false,
  .holds fun b => b.isCubeTakeOrPass HIM == true,
  .holds fun b => b.isToAcceptResign YOU == false,
  .holds fun b => b.isToAcceptResign HIM == false,
  .holds fun b => b.isLegalToRoll YOU == false,
  .holds fun b => b.isLegalToRoll HIM == false,
  .holds fun b => b.isLegalToMove YOU == false,
  .holds fun b => b.isLegalToMove HIM == false,
  .holds fun b => b.isLegalToDouble YOU == .ok false,
  .holds fun b => b.isLegalToDouble HIM == .ok false]

def boardeditor_is_leagal_to_redouble_test : List TestStep := [
  .edit fun b => { b with gameState := ON_GOING },
  .holds fun b => b.isLegalToRedouble YOU == false,
  .holds fun b => b.isLegalToRedouble HIM == false,
  .act fun b => b.double YOU,
  .holds fun b => b.isLegalToRedouble YOU == false,
  .holds fun b => b.isLegalToRedouble HIM == true,
  .edit fun b => { b with matchLength := 1 },
  .holds fun b => b.isLegalToRedouble YOU == false,
  .holds fun b => b.isLegalToRedouble HIM == false]

def boardeditor_take_test : List TestStep := [
  .edit fun b => { b with gameState := ON_GOING },
  .act fun b => b.double YOU,
  .act fun b => b.take HIM,
  .holds fun b => b.isLegalToRoll YOU == true,
  .holds fun b => b.isLegalToRoll HIM == false,
  .holds fun b => b.isLegalToMove YOU == false,
  .holds fun b => b.isLegalToMove HIM == false,
  .holds fun b => b.isLegalToDouble YOU == .ok false,
  .holds fun b => b.isLegalToDouble HIM == .ok false,
  .holds fun b => b.isToAcceptResign YOU == false,
  .holds fun b => b.isToAcceptResign HIM == false]

def boardeditor_drop_1_test : List TestStep := [
  .edit fun b => { b with gameState := ON_GOING },
  .act fun b => b.double YOU,
  .act fun b => b.drop HIM,
  .holds fun b => b.gameState == DOUBLED_OUT,
  .holds fun b => b.score == (1, 0)]

def boardeditor_drop_2_test : List TestStep := [
  .edit fun b => { b with gameState := ON_GOING },
  .edit fun b => { b with score := (1, 3) },
  .edit fun b => { b with cube := 3 },
  .edit fun b => { b with onAction := HIM },
  .edit fun b => { b with onInnerAction := HIM },
  .act fun b => b.double HIM,
  .act fun b => b.drop YOU,
  .holds fun b => b.gameState == DOUBLED_OUT,
  .holds fun b => b.score == (1, 11)]

def boardeditor_is_leagal_to_resign_test : List TestStep := [
  .edit fun b => { b with gameState := ON_GOING },
  .holds fun b => b.isLegalToResign YOU == true]

def boardeditor_offer_resign_1_test : List TestStep := [
  .edit fun b => { b with gameState := ON_GOING },
  .holds fun b => b.score == (0, 0),
  .act fun b => b.offerResign YOU RESIGN_SINGLE,
  .holds fun b => b.isToAcceptResign HIM == true,
  .act fun b => b.rejectResign HIM,
  .holds fun b => b.onAction == YOU,
  .holds fun b => b.onInnerAction == YOU,
  .holds fun b => b.isCubeTakeOrPass YOU == false,
  .holds fun b => b.isCubeTakeOrPass HIM == false,
  .holds fun b => b.isToAcceptResign YOU == false,
  .holds fun b => b.isToAcceptResign HIM == false,
  .holds fun b => b.isLegalToRoll HIM == false,
  .holds fun b => b.isLegalToMove YOU == false,
  .holds fun b => b.isLegalToMove HIM == false,
  .holds fun b => b.isLegalToDouble YOU == .ok true,
  .holds fun b => b.isLegalToDouble HIM == .ok false,
  .holds fun b => b.score == (0, 0)]

def boardeditor_offer_resign_2_test : List TestStep := [
  .edit fun b => { b with gameState := ON_GOING },
  .edit fun b => { b with cube := 3 },
  .holds fun b => b.score == (0, 0),
  .edit fun b => { b with onAction := HIM },
  .edit fun b => { b with onInnerAction := HIM },
  .act fun b => b.offerResign HIM RESIGN_BACKGAMMON,
  .holds fun b => b.isToAcceptResign YOU == true,
  .act fun b => b.acceptResign YOU,
  .holds fun b => b.gameState == RESIGNED,
  .holds fun b => b.score == (24, 0)]

def move_mf_1_test : List TestStep := [
  .start { rolled := (3, 1) },
  .factory,
  .source t!"bar",
  .found none,
  .source t!"6",
  .found (some t!"6/3"),
  .append,
  .holds fun b => b.position.1 == [0, 0, 1, 0, 0, 4, 0, 3, 0, 0, 0, 0, 5, 0, 0, 0, 0, 0, 0, 0, 0, 0, 0, 2, 0],
  .recorded (some t!"6/3"),
  .dice [1, 0, 0, 0, 0, 0],
  .source t!"6",
  .found (some t!"6/5"),
  .append,
  .holds fun b => b.position.1 == [0, 0, 1, 0, 1, 3, 0, 3, 0, 0, 0, 0, 5, 0, 0, 0, 0, 0, 0, 0, 0, 0, 0, 2, 0],
  .recorded (some t!"6/3, 6/5"),
  .dice [0, 0, 0, 0, 0, 0],
  .source t!"6",
  .found none]

def move_mf_2_test : List TestStep := [
  .start { position := ([0, 5, 4, 3, 2, 1, 0, 0, 0, 0, 0, 0, 0, 0, 0, 0, 0, 0, 0, 0, 0, 0, 0, 0, 0], [0, 0, 0, 0, 2, 4, 0, 2, 0, 0, 0, 0, 5, 0, 0, 0, 0, 0, 0, 0, 0, 0, 0, 2, 0]), rolled := (6, 1) },
  .factory,
  .source t!"6",
  .found (some t!"6/off")]

def move_mf_3_test : List TestStep := [
  .start { position := ([0, 5, 4, 3, 3, 0, 0, 0, 0, 0, 0, 0, 0, 0, 0, 0, 0, 0, 0, 0, 0, 0, 0, 0, 0], [0, 0, 0, 0, 2, 4, 0, 2, 0, 0, 0, 0, 5, 0, 0, 0, 0, 0, 0, 0, 0, 0, 0, 2, 0]), rolled := (6, 1) },
  .factory,
  .source t!"5",
  .found (some t!"5/off")]

def move_mf_4_test : List TestStep := [
  .start { position := ([0, 5, 4, 0, 2, 1, 0, 0, 0, 0, 0, 0, 0, 0, 0, 0, 0, 0, 0, 0, 0, 0, 0, 0, 0], [0, 0, 0, 0, 2, 4, 0, 2, 0, 0, 0, 0, 5, 0, 0, 0, 0, 0, 0, 0, 0, 0, 0, 2, 0]), rolled := (4, 1) },
  .factory,
  .dest t!"off",
  .found none]

def move_mf_5_test : List TestStep := [
  .start { position := ([0, 0, 0, 0, 0, 5, 0, 3, 0, 0, 0, 0, 5, 0, 0, 0, 0, 0, 0, 0, 0, 0, 0, 2, 0], [0, 0, 0, 0, 2, 4, 0, 2, 0, 0, 0, 0, 5, 0, 0, 0, 0, 0, 0, 0, 0, 0, 0, 2, 0]), rolled := (4, 1) },
  .factory,
  .source t!"24",
  .found (some t!"24/23"),
  .append,
  .holds fun b => b.position.1 == [0, 0, 0, 0, 0, 5, 0, 3, 0, 0, 0, 0, 5, 0, 0, 0, 0, 0, 0, 0, 0, 0, 1, 1, 0],
  .recorded (some t!"24/23"),
  .dice [0, 0, 0, 1, 0, 0],
  .source t!"24",
  .found none]

def move_mf_6_test : List TestStep := [
  .start { position := ([0, 0, 0, 0, 0, 5, 0, 3, 0, 0, 0, 0, 5, 0, 0, 0, 0, 0, 0, 0, 0, 0, 0, 2, 0], [0, 0, 0, 0, 2, 4, 0, 2, 0, 0, 0, 0, 5, 0, 0, 0, 0, 0, 0, 0, 0, 0, 0, 2, 0]), rolled := (4, 1) },
  .factory,
  .source t!"24",
  .found (some t!"24/23"),
  .append,
  .holds fun b => b.position.1 == [0, 0, 0, 0, 0, 5, 0, 3, 0, 0, 0, 0, 5, 0, 0, 0, 0, 0, 0, 0, 0, 0, 1, 1, 0],
  .recorded (some t!"24/23"),
  .dice [0, 0, 0, 1, 0, 0],
  .source t!"24",
  .found none]

def move_mf_7_test : List TestStep := [
  .start { rolled := (3, 1) },
  .factory,
  .dest t!"6",
  .found none,
  .dest t!"5",
  .found (some t!"8/5"),
  .append,
  .holds fun b => b.position.1 == [0, 0, 0, 0, 1, 5, 0, 2, 0, 0, 0, 0, 5, 0, 0, 0, 0, 0, 0, 0, 0, 0, 0, 2, 0],
  .recorded (some t!"8/5"),
  .dice [1, 0, 0, 0, 0, 0],
  .dest t!"5",
  .found (some t!"6/5"),
  .append,
  .holds fun b => b.position.1 == [0, 0, 0, 0, 2, 4, 0, 2, 0, 0, 0, 0, 5, 0, 0, 0, 0, 0, 0, 0, 0, 0, 0, 2, 0],
  .recorded (some t!"8/5, 6/5"),
  .dice [0, 0, 0, 0, 0, 0],
  .dest t!"5",
  .found none]

def move_mf_8_test : List TestStep := [
  .start { position := ([0, 0, 0, 0, 0, 5, 0, 3, 0, 0, 0, 0, 5, 0, 0, 0, 0, 0, 0, 0, 0, 0, 0, 2, 0], [0, 0, 0, 0, 2, 4, 0, 2, 0, 0, 0, 0, 5, 0, 0, 0, 0, 0, 0, 0, 0, 0, 0, 2, 0]), rolled := (4, 1) },
  .holds fun b => b.position == ([0, 0, 0, 0, 0, 5, 0, 3, 0, 0, 0, 0, 5, 0, 0, 0, 0, 0, 0, 0, 0, 0, 0, 2, 0], [0, 0, 0, 0, 2, 4, 0, 2, 0, 0, 0, 0, 5, 0, 0, 0, 0, 0, 0, 0, 0, 0, 0, 2, 0]),
  .factory,
  .dest t!"20",
  .found none]

def move_mf_9_test : List TestStep := [
  .start { position := ([0, 0, 0, 0, 0, 5, 0, 3, 0, 0, 0, 0, 5, 0, 0, 0, 0, 0, 0, 0, 0, 0, 0, 2, 0], [0, 0, 0, 0, 2, 4, 0, 2, 0, 0, 0, 0, 5, 0, 0, 0, 0, 0, 0, 0, 0, 0, 0, 2, 0]), rolled := (6, 4) },
  .factory,
  .multiple t!"24" t!"15",
  .found none,
  .multiple t!"24" t!"14",
  .found (some t!"24/18, 18/14")]

def move_mf_10_test : List TestStep := [
  .start { position := ([0, 0, 0, 0, 0, 5, 0, 3, 0, 0, 0, 0, 5, 0, 0, 0, 0, 0, 0, 0, 0, 0, 0, 2, 0], [0, 0, 0, 0, 0, 5, 2, 2, 0, 0, 0, 0, 4, 0, 0, 0, 0, 0, 0, 0, 0, 0, 0, 2, 0]), rolled := (6, 4) },
  .factory,
  .source t!"24",
  .found (some t!"24/20"),
  .append,
  .source t!"20",
  .found (some t!"20/14")]

def move_mf_11_test : List TestStep := [
  .start { position := ([0, 0, 0, 0, 0, 5, 0, 3, 0, 0, 0, 0, 5, 0, 0, 0, 0, 0, 0, 0, 0, 0, 0, 2, 0], [0, 0, 0, 0, 0, 5, 2, 2, 0, 0, 0, 0, 4, 0, 0, 0, 0, 0, 0, 0, 0, 0, 0, 2, 0]), rolled := (6, 4) },
  .factory,
  .multiple t!"24" t!"14",
  .found (some t!"24/20, 20/14")]

def move_mf_12_test : List TestStep := [
  .start { position := ([0, 0, 0, 0, 1, 4, 0, 3, 0, 0, 0, 0, 5, 0, 0, 0, 0, 0, 0, 0, 0, 0, 0, 2, 0], [0, 0, 0, 0, 0, 5, 2, 2, 0, 0, 0, 0, 4, 0, 0, 0, 0, 0, 0, 0, 0, 0, 1, 1, 0]), rolled := (4, 4) },
  .factory,
  .multiple t!"13" t!"1",
  .found (some t!"13/9, 9/5, 5/1*")]

def move_mf_13_test : List TestStep := [
  .start { position := ([1, 0, 1, 0, 1, 0, 0, 0, 0, 0, 0, 0, 0, 0, 0, 0, 0, 0, 0, 0, 0, 0, 0, 0, 0], [8, 3, 0, 2, 0, 0, 0, 0, 0, 0, 0, 0, 0, 0, 0, 0, 0, 0, 0, 0, 0, 0, 0, 0, 0]), rolled := (4, 2) },
  .factory,
  .multiple t!"5" t!"3",
  .found (some t!"5/3"),
  .add,
  .holds fun b => b.position == ([1, 0, 2, 0, 0, 0, 0, 0, 0, 0, 0, 0, 0, 0, 0, 0, 0, 0, 0, 0, 0, 0, 0, 0, 0], [8, 3, 0, 2, 0, 0, 0, 0, 0, 0, 0, 0, 0, 0, 0, 0, 0, 0, 0, 0, 0, 0, 0, 0, 0]),
  .chequers t!"3" 2,
  .multiple t!"3" t!"off",
  .found (some t!"3/off")]

def move_mf_14_test : List TestStep := [
  .start { position := ([0, 0, 0, 0, 1, 4, 0, 3, 0, 0, 0, 0, 5, 0, 0, 0, 0, 0, 0, 0, 0, 0, 0, 2, 0], [0, 0, 0, 0, 0, 5, 2, 2, 0, 0, 0, 0, 4, 0, 0, 0, 0, 0, 0, 0, 0, 0, 1, 1, 0]), rolled := (4, 4) },
  .factory,
  .source t!"13",
  .found (some t!"13/9"),
  .append,
  .multiple t!"13" t!"1",
  .found (some t!"13/9, 9/5, 5/1*"),
  .recorded (some t!"13/9"),
  .add,
  .recorded (some t!"13/9, 13/9, 9/5, 5/1*")]

def move_mf_15_test : List TestStep := [
  .start { position := ([0, 0, 0, 0, 1, 4, 0, 3, 0, 0, 0, 0, 5, 0, 0, 0, 0, 0, 0, 0, 0, 0, 0, 1, 1], [0, 0, 0, 0, 0, 5, 2, 2, 0, 0, 0, 0, 4, 0, 0, 0, 0, 0, 0, 0, 0, 0, 1, 1, 0]), rolled := (5, 5) },
  .factory,
  .multiple t!"bar" t!"5",
  .found (some t!"bar/20, 20/15, 15/10, 10/5"),
  .add,
  .undoes t!"5" t!"15",
  .found (some t!"5/10, 10/15"),
  .add,
  .recorded (some t!"bar/20, 20/15")]

def move_mf_16_test : List TestStep := [
  .start { position := ([2, 0, 3, 3, 3, 0, 0, 0, 0, 0, 0, 0, 2, 0, 0, 0, 0, 0, 0, 0, 0, 0, 0, 2, 0], [1, 0, 0, 2, 2, 2, 2, 0, 0, 0, 0, 0, 2, 0, 0, 0, 2, 0, 0, 0, 0, 0, 2, 0, 0]), rolled := (6, 5) },
  .factory,
  .source t!"13",
  .found (some t!"13/7"),
  .append,
  .pickup true]

def move_mf_17_test : List TestStep := [
  .start { position := ([2, 0, 3, 3, 3, 0, 0, 0, 0, 0, 0, 0, 2, 0, 0, 0, 0, 0, 0, 0, 0, 0, 2, 0, 0], [1, 0, 0, 2, 2, 2, 2, 0, 0, 0, 0, 0, 2, 0, 0, 0, 2, 0, 0, 0, 0, 0, 2, 0, 0]), rolled := (6, 5) },
  .factory,
  .source t!"23",
  .found (some t!"23/17"),
  .append,
  .pickup true]

def move_mf_18_test : List TestStep := [
  .start { position := ([0, 2, 3, 3, 3, 0, 0, 0, 0, 0, 0, 0, 2, 0, 0, 0, 0, 0, 0, 0, 0, 0, 2, 0, 0], [1, 0, 0, 2, 2, 2, 2, 0, 0, 0, 0, 0, 2, 0, 0, 0, 2, 0, 0, 0, 0, 0, 0, 2, 0]), rolled := (6, 5) },
  .factory,
  .source t!"23",
  .found (some t!"23/17"),
  .append,
  .pickup false]

def move_mf_19_test : List TestStep := [
  .start { position := ([0, 3, 3, 3, 3, 2, 0, 0, 0, 0, 0, 0, 0, 0, 0, 0, 0, 0, 0, 0, 0, 0, 1, 0, 0], [1, 0, 0, 2, 2, 4, 0, 0, 0, 0, 0, 0, 2, 0, 0, 0, 2, 0, 0, 0, 0, 0, 0, 2, 0]), rolled := (6, 5) },
  .factory,
  .source t!"23",
  .found (some t!"23/17"),
  .append,
  .pickup true]

def move_mf_20_test : List TestStep := [
  .start { position := ([0, 3, 3, 3, 3, 2, 0, 0, 0, 0, 0, 0, 0, 0, 0, 0, 0, 0, 0, 0, 0, 0, 1, 0, 1], [1, 0, 0, 2, 2, 4, 0, 0, 0, 0, 0, 0, 2, 0, 0, 0, 2, 0, 0, 0, 0, 0, 0, 2, 0]), rolled := (6, 5) },
  .factory,
  .multiple t!"23" t!"18",
  .found none,
  .pickup true]

def move_mf_21_test : List TestStep := [
  .start { position := ([0, 3, 3, 3, 0, 6, 0, 0, 0, 0, 0, 0, 0, 0, 0, 0, 0, 0, 0, 0, 0, 0, 0, 0, 0], [1, 0, 0, 2, 2, 4, 0, 0, 0, 0, 0, 0, 2, 0, 0, 0, 2, 0, 0, 0, 0, 0, 0, 2, 0]), rolled := (4, 5) },
  .factory,
  .multiple t!"6" t!"2",
  .found (some t!"6/2"),
  .add,
  .pickup true]

def move_mf_22_test : List TestStep := [
  .start { position := ([0, 0, 0, 0, 1, 4, 0, 3, 0, 0, 0, 0, 5, 0, 0, 0, 0, 0, 0, 1, 0, 0, 0, 1, 0], [0, 0, 0, 0, 0, 5, 2, 2, 0, 0, 0, 0, 4, 0, 0, 0, 0, 0, 0, 0, 0, 0, 1, 1, 0]), rolled := (5, 5) },
  .factory,
  .multiple t!"20" t!"10",
  .found (some t!"20/15, 15/10"),
  .add,
  .undoes t!"6" t!"15",
  .nothing,
  .found none]

def move_mf_23_test : List TestStep := [
  .start { position := ([0, 0, 0, 0, 1, 4, 0, 3, 0, 0, 0, 0, 5, 0, 0, 0, 0, 0, 0, 0, 0, 0, 0, 1, 1], [0, 0, 0, 0, 0, 5, 2, 2, 0, 0, 0, 0, 4, 0, 0, 0, 0, 0, 0, 0, 0, 0, 1, 1, 0]), rolled := (5, 5) },
  .factory,
  .multiple t!"bar" t!"5",
  .found (some t!"bar/20, 20/15, 15/10, 10/5"),
  .add,
  .undoes t!"1" t!"6",
  .nothing,
  .found none]

def move_mf_24_test : List TestStep := [
  .start { position := ([0, 0, 0, 0, 0, 5, 0, 3, 0, 0, 0, 0, 5, 0, 0, 0, 0, 0, 0, 0, 0, 0, 0, 2, 0], [0, 0, 0, 0, 0, 5, 2, 2, 0, 0, 0, 0, 4, 0, 0, 0, 0, 0, 0, 0, 0, 0, 1, 1, 0]), rolled := (3, 1) },
  .factory,
  .point t!"5",
  .something,
  .found (some t!"8/5, 6/5")]

def move_mf_25_test : List TestStep := [
  .start { position := ([0, 0, 0, 0, 0, 5, 0, 3, 0, 0, 0, 0, 5, 0, 0, 0, 0, 0, 0, 0, 0, 0, 0, 2, 0], [0, 0, 0, 0, 0, 5, 2, 2, 0, 0, 0, 0, 4, 0, 0, 0, 0, 0, 0, 0, 0, 0, 1, 1, 0]), rolled := (3, 3) },
  .factory,
  .point t!"5",
  .something,
  .found (some t!"8/5, 8/5")]

def move_mf_26_test : List TestStep := [
  .start { position := ([0, 0, 0, 0, 0, 4, 0, 3, 0, 0, 0, 0, 5, 0, 1, 0, 0, 0, 0, 0, 0, 0, 0, 1, 1], [0, 0, 0, 0, 0, 5, 2, 2, 0, 0, 0, 0, 4, 0, 0, 0, 0, 0, 0, 0, 0, 0, 1, 1, 0]), rolled := (5, 5) },
  .factory,
  .point t!"10",
  .something,
  .found (some t!"bar/20, 20/15, 15/10, 15/10")]

def move_mf_27_test : List TestStep := [
  .start { position := ([2, 2, 2, 0, 0, 3, 0, 2, 0, 0, 0, 0, 3, 0, 0, 0, 0, 0, 0, 0, 0, 0, 0, 1, 0], [0, 0, 0, 0, 2, 4, 0, 2, 0, 0, 0, 0, 4, 0, 0, 0, 0, 0, 0, 3, 0, 0, 0, 0, 0]), rolled := (2, 4) },
  .factory,
  .multiple t!"24" t!"22",
  .found (some t!"24/22"),
  .add,
  .dice [0, 0, 0, 1, 0, 0],
  .best 4,
  .multiple t!"13" t!"9",
  .found (some t!"13/9")]

def move_mf_28_test : List TestStep := [
  .start { position := ([0, 0, 0, 2, 2, 3, 0, 3, 0, 0, 0, 0, 2, 0, 0, 0, 0, 0, 0, 0, 0, 2, 0, 1, 0], [0, 0, 0, 2, 0, 4, 0, 3, 0, 0, 0, 0, 4, 0, 0, 0, 0, 0, 0, 0, 0, 1, 0, 1, 0]), rolled := (1, 1) },
  .factory,
  .multiple t!"8" t!"6",
  .found (some t!"8/7, 7/6"),
  .add,
  .dice [2, 0, 0, 0, 0, 0],
  .best 1,
  .multiple t!"8" t!"7",
  .found (some t!"8/7"),
  .add,
  .multiple t!"8" t!"7",
  .found (some t!"8/7")]

def modelTests : List (String × List TestStep) := [
  ("board_find_src_of_bearoff_with_1_test", board_find_src_of_bearoff_with_1_test),
  ("board_find_src_of_bearoff_with_2_test", board_find_src_of_bearoff_with_2_test),
  ("board_is_open_to_land_test", board_is_open_to_land_test),
  ("board_is_hitting_to_land_2_test", board_is_hitting_to_land_2_test),
  ("board_is_hitting_to_land_1_test", board_is_hitting_to_land_1_test),
  ("board_cube_owner_1_test", board_cube_owner_1_test),
  ("board_cube_owner_2_test", board_cube_owner_2_test),
  ("board_cube_in_logarithm_1_test", board_cube_in_logarithm_1_test),
  ("board_cube_in_logarithm_2_test", board_cube_in_logarithm_2_test),
  ("boardeditor_flip_1_test", boardeditor_flip_1_test),
  ("boardeditor_flip_2_test", boardeditor_flip_2_test),
  ("boardeditor_flip_3_test", boardeditor_flip_3_test),
  ("boardeditor_cube_owner_test", boardeditor_cube_owner_test),
  ("boardeditor_default_value_test", boardeditor_default_value_test),
  ("boardeditor_move_test", boardeditor_move_test),
  ("boardeditor_make_partial_move_1_test", boardeditor_make_partial_move_1_test),
  ("boardeditor_make_partial_move_2_test", boardeditor_make_partial_move_2_test),
  ("boardeditor_is_leagal_to_roll_test", boardeditor_is_leagal_to_roll_test),
  ("boardeditor_double_test", boardeditor_double_test),
  ("boardeditor_is_leagal_to_redouble_test", boardeditor_is_leagal_to_redouble_test),
  ("boardeditor_take_test", boardeditor_take_test),
  ("boardeditor_drop_1_test", boardeditor_drop_1_test),
  ("boardeditor_drop_2_test", boardeditor_drop_2_test),
  ("boardeditor_is_leagal_to_resign_test", boardeditor_is_leagal_to_resign_test),
  ("boardeditor_offer_resign_1_test", boardeditor_offer_resign_1_test),
  ("boardeditor_offer_resign_2_test", boardeditor_offer_resign_2_test),
  ("move_mf_1_test", move_mf_1_test),
  ("move_mf_2_test", move_mf_2_test),
  ("move_mf_3_test", move_mf_3_test),
  ("move_mf_4_test", move_mf_4_test),
  ("move_mf_5_test", move_mf_5_test),
  ("move_mf_6_test", move_mf_6_test),
  ("move_mf_7_test", move_mf_7_test),
  ("move_mf_8_test", move_mf_8_test),
  ("move_mf_9_test", move_mf_9_test),
  ("move_mf_10_test", move_mf_10_test),
  ("move_mf_11_test", move_mf_11_test),
  ("move_mf_12_test", move_mf_12_test),
  ("move_mf_13_test", move_mf_13_test),
  ("move_mf_14_test", move_mf_14_test),
  ("move_mf_15_test", move_mf_15_test),
  ("move_mf_16_test", move_mf_16_test),
  ("move_mf_17_test", move_mf_17_test),
  ("move_mf_18_test", move_mf_18_test),
  ("move_mf_19_test", move_mf_19_test),
  ("move_mf_20_test", move_mf_20_test),
  ("move_mf_21_test", move_mf_21_test),
  ("move_mf_22_test", move_mf_22_test),
  ("move_mf_23_test", move_mf_23_test),
  ("move_mf_24_test", move_mf_24_test),
  ("move_mf_25_test", move_mf_25_test),
  ("move_mf_26_test", move_mf_26_test),
  ("move_mf_27_test", move_mf_27_test),
  ("move_mf_28_test", move_mf_28_test)]

end Bglib.Check
