import Verif.Model.Cookie
/-
The pairs of names that some message of the run phase fits both of (C54).
-/
namespace Bglib.Spec
open Bglib

/-- Pairs where each of the two names also has messages of its own. -/
def contested : List (Text × Text) := [
  (t!"FIBS_PlayerStartsWatching", t!"FIBS_PlayerIsWatching"),
  (t!"FIBS_BAD_AcceptDouble", t!"FIBS_YouAcceptDouble"),
  (t!"FIBS_BAD_AcceptDouble", t!"FIBS_PlayerAcceptsDouble"),
  (t!"FIBS_ReportLimitedMatch", t!"FIBS_ReportUnlimitedMatch"),
  (t!"CLIP_WHO_INFO", t!"FIBS_Stat"), (t!"CLIP_SHOUTS", t!"FIBS_Stat"), (t!"CLIP_SAYS", t!"FIBS_Stat"),
  (t!"CLIP_WHISPERS", t!"FIBS_Stat"), (t!"CLIP_KIBITZES", t!"FIBS_Stat"), (t!"CLIP_YOU_SAY", t!"FIBS_Stat"),
  (t!"CLIP_YOU_SHOUT", t!"FIBS_Stat"), (t!"CLIP_YOU_WHISPER", t!"FIBS_Stat"),
  (t!"CLIP_YOU_KIBITZ", t!"FIBS_Stat"), (t!"CLIP_LOGIN", t!"FIBS_Stat"), (t!"CLIP_LOGOUT", t!"FIBS_Stat"),
  (t!"CLIP_MESSAGE", t!"FIBS_Stat"), (t!"CLIP_MESSAGE_DELIVERED", t!"FIBS_Stat"),
  (t!"CLIP_MESSAGE_SAVED", t!"FIBS_Stat"),
  (t!"FIBS_PlayerRefusingGames", t!"FIBS_Username"), (t!"FIBS_DidntInvite", t!"FIBS_Username"),
  (t!"FIBS_PlayerNotPlaying", t!"FIBS_Username"), (t!"FIBS_WontListen", t!"FIBS_Username")]

/-- Pairs where every message of the first name is also one of the second. -/
def eclipsed : List (Text × Text) := [
  (t!"FIBS_Board", t!"FIBS_BAD_Board"),
  (t!"FIBS_ShowMovesRoll", t!"FIBS_ShowMovesOther"), (t!"FIBS_ShowMovesWins", t!"FIBS_ShowMovesOther"),
  (t!"FIBS_ShowMovesDoubles", t!"FIBS_ShowMovesOther"), (t!"FIBS_ShowMovesAccepts", t!"FIBS_ShowMovesOther"),
  (t!"FIBS_ShowMovesRejects", t!"FIBS_ShowMovesOther"),
  (t!"FIBS_NoUser", t!"FIBS_NoOne")]

/-- All of them. -/
def ambiguous : List (Text × Text) := contested ++ eclipsed

end Bglib.Spec
