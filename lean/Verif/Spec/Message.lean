import Verif.Spec.Cookie
/-
Messages of a FIBS server with things to be filled in (C109, C110).
-/
namespace Bglib.Spec
open Bglib

/-- A part of a message: fixed words, the name of a user, a number, the number on a die, one of the digits 0 and 1, some spaces,
anything up to the end of the line. -/
inductive Blank where
  | words (t : Text)
  | user
  | number
  | die
  | flag
  | spaces
  | rest
  deriving DecidableEq, Repr

/-- The names FIBS gives to users: letters and underscores. -/
def IsUser (u : Text) : Prop := u ≠ [] ∧ ∀ c ∈ u, ('a' ≤ c ∧ c ≤ 'z') ∨ ('A' ≤ c ∧ c ≤ 'Z') ∨ c = '_'

/-- The texts that can stand for a part. -/
def Blank.takes : Blank → Text → Prop
  | .words t, u => u = t
  | .user, u => IsUser u
  | .number, u => u ≠ [] ∧ ∀ c ∈ u, '0' ≤ c ∧ c ≤ '9'
  | .die, u => ∃ c, u = [c] ∧ '1' ≤ c ∧ c ≤ '6'
  | .flag, u => u = ['0'] ∨ u = ['1']
  | .spaces, u => u ≠ [] ∧ ∀ c ∈ u, c = ' '
  | .rest, u => ∀ c ∈ u, c ≠ '\n'

/-- The messages one gets by filling in a form. -/
inductive FilledIn : List Blank → Text → Prop where
  | nil : FilledIn [] []
  | cons (b : Blank) (f : List Blank) (u s : Text) : b.takes u → FilledIn f s → FilledIn (b :: f) (u ++ s)

/-- In a phase every message got by filling in the form has the answer `c`, whatever came before and whatever order the dictionaries
have. -/
def Answered (ph : Phase) (f : List Blank) (c : Text) : Prop :=
  ∀ order, ValidOrder order → ∀ m, Reachable order m → m.phase = ph → ∀ s, FilledIn f s → (m.makeCookie order s).1 = .ok c

open Blank in
/-- The messages of the interface for clients in the login phase. -/
def greetings : List (List Blank × Text) := [
  ([words t!"1 ", user, words t!" ", number, words t!" ", rest], t!"CLIP_WELCOME"),
  ([words t!"2 ", user, words t!" ", flag, words t!" ", flag, rest], t!"CLIP_OWN_INFO"),
  ([words t!"3"], t!"CLIP_MOTD_BEGIN")]

open Blank in
/-- The messages of the interface for clients after that. -/
def clips : List (List Blank × Text) := [
  ([words t!"5 ", user, words t!" - - ", flag, rest], t!"CLIP_WHO_INFO"),
  ([words t!"5 ", user, words t!" ", user, words t!" - ", flag, rest], t!"CLIP_WHO_INFO"),
  ([words t!"5 ", user, words t!" - ", user, words t!" ", flag, rest], t!"CLIP_WHO_INFO"),
  ([words t!"6"], t!"CLIP_WHO_END"),
  ([words t!"7 ", user, words t!" ", rest], t!"CLIP_LOGIN"),
  ([words t!"8 ", user, words t!" ", rest], t!"CLIP_LOGOUT"),
  ([words t!"9 ", user, words t!" ", number, words t!" ", rest], t!"CLIP_MESSAGE"),
  ([words t!"10 ", user], t!"CLIP_MESSAGE_DELIVERED"),
  ([words t!"11 ", user], t!"CLIP_MESSAGE_SAVED"),
  ([words t!"12 ", user, words t!" ", rest], t!"CLIP_SAYS"),
  ([words t!"13 ", user, words t!" ", rest], t!"CLIP_SHOUTS"),
  ([words t!"14 ", user, words t!" ", rest], t!"CLIP_WHISPERS"),
  ([words t!"15 ", user, words t!" ", rest], t!"CLIP_KIBITZES"),
  ([words t!"16 ", user, words t!" ", rest], t!"CLIP_YOU_SAY"),
  ([words t!"17 ", rest], t!"CLIP_YOU_SHOUT"),
  ([words t!"18 ", rest], t!"CLIP_YOU_WHISPER"),
  ([words t!"19 ", rest], t!"CLIP_YOU_KIBITZ")]

/-- Lines like those of the command `stat`: a number, then one of these. -/
def LikeStatistics (s : Text) : Prop :=
  ∃ n t, n ≠ [] ∧ (∀ c ∈ n, '0' ≤ c ∧ c ≤ '9') ∧ s = n ++ t ∧
    ∃ w ∈ [t!" bytes", t!" accounts", t!" ratings saved", t!" registered users", t!"("], w <+: t

open Blank in
/-- The messages in the comments of the table, fibs.py:94-353, where "PLAYER" is a user, and what they stand beside. -/
def described : List (List Blank × Text) := [
  ([words t!"You double. Please wait for ", user, words t!" to accept or reject."], t!"FIBS_YouDouble"),
  ([user, words t!" wants to resign. ", user, words t!" will win ", number, words t!" points."], t!"FIBS_WatchResign"),
  ([words t!"You want to resign. ", user, words t!" will win ", number, words t!" ."], t!"FIBS_YouResign"),
  ([user, words t!" gives up. ", user, words t!" wins ", number, words t!" point."], t!"FIBS_ResignWins"),
  ([user, words t!" accepts and wins ", number, words t!" points."], t!"FIBS_AcceptWins"),
  ([user, words t!" and ", user, words t!" start a ", number, words t!" point match."], t!"FIBS_PlayersStartingMatch"),
  ([user, words t!" wins the ", number, words t!" point match ", number, words t!"-", number, words t!" ."], t!"FIBS_PlayerWinsMatch"),
  ([user, words t!" wins a ", number, words t!" point match against ", user, words t!"  ", number, words t!"-", number, words t!" ."],
    t!"FIBS_MatchResult"),
  ([user, spaces, words t!"-", spaces, user, words t!" (", number, words t!" point match ", number, words t!"-", number, words t!")"],
    t!"FIBS_ReportLimitedMatch"),
  ([user, words t!" can't move"], t!"FIBS_CantMove"),
  ([words t!"You can't move"], t!"FIBS_CantMove"),
  ([words t!"Experience: ", user, words t!" ", number, words t!" - ", user, words t!" ", number], t!"FIBS_RatingCalcInfo"),
  ([words t!"K=max(1 ,    -Experience/100+5) for ", user, words t!": ", number, words t!".", number], t!"FIBS_RatingCalcInfo"),
  ([words t!"change for ", user, words t!": 4*K*sqrt(N)*P=", number, words t!".", number], t!"FIBS_RatingCalcInfo"),
  ([words t!"  Rating: ", number, words t!".", number, words t!" Experience: ", number], t!"FIBS_RatingExperience"),
  ([words t!"  opponent          matchlength   score (your points first)"], t!"FIBS_SavedMatchesHeader"),
  ([words t!"  Still logged in. ", number, words t!":", number, words t!" minutes idle."], t!"FIBS_StillLoggedIn"),
  ([words t!"** You are now playing a ", number, words t!" point match with ", user], t!"FIBS_NewMatchAck10"),
  ([words t!"** Player ", user, words t!" has joined you for a ", number, words t!" point match."], t!"FIBS_NewMatchAck2"),
  ([words t!"** You can't move ", number, words t!" points in your first move"], t!"FIBS_CantMoveFirstMove"),
  ([user, words t!" logs out. The game was saved."], t!"FIBS_OpponentLogsOut"),
  ([user, words t!" drops connection. The game was saved."], t!"FIBS_OpponentLogsOut"),
  ([user, words t!" logs out.. You're not watching anymore."], t!"FIBS_YouStopWatching"),
  ([user, words t!" and ", user, words t!" start an unlimited match."], t!"FIBS_PlayersStartingUnlimitedMatch"),
  ([words t!"P=", number, words t!".", number, words t!" is 1-Pu if underdog wins and Pu if favorite wins"], t!"FIBS_RatingCalcInfo"),
  ([words t!"** You tell ", user, words t!": ", rest], t!"FIBS_Junk")]

/-- Those that are not recognised. -/
def overlooked : List (List Blank × Text) := described.drop 20

open Blank in
/-- What the server says about games, as the patterns of the table word it. -/
def gameTalk : List (List Blank × Text) := [
  ([words t!"You roll ", die, words t!" and ", die, words t!"."], t!"FIBS_YouRoll"),
  ([user, words t!" rolls ", die, words t!" and ", die, words t!"."], t!"FIBS_PlayerRolls"),
  ([words t!"It's your turn to roll or double."], t!"FIBS_RollOrDouble"),
  ([words t!"It's your turn. Please roll or double"], t!"FIBS_RollOrDouble"),
  ([words t!"Please move 4 pieces."], t!"FIBS_PleaseMove"),
  ([words t!"Please move 3 pieces."], t!"FIBS_PleaseMove"),
  ([words t!"Please move 2 pieces."], t!"FIBS_PleaseMove"),
  ([words t!"Please move 1 piece."], t!"FIBS_PleaseMove"),
  ([user, words t!" moves ", rest], t!"FIBS_PlayerMoves"),
  ([words t!"The only possible move is ", rest], t!"FIBS_OnlyPossibleMove"),
  ([user, words t!" rolled ", die, words t!", ", user, words t!" rolled ", die], t!"FIBS_FirstRoll"),
  ([user, words t!" doubles."], t!"FIBS_Doubles"),
  ([words t!"You accept the double. The cube shows ", number, words t!"."], t!"FIBS_YouAcceptDouble"),
  ([user, words t!" accepts the double. The cube shows ", number, words t!"."], t!"FIBS_PlayerAcceptsDouble"),
  ([user, words t!" accepts the double."], t!"FIBS_PlayerAcceptsDouble"),
  ([words t!"You give up. ", rest], t!"FIBS_YouGiveUp"),
  ([user, words t!" gives up. You win ", number, words t!" points."], t!"FIBS_ResignYouWin"),
  ([user, words t!" gives up. You win ", number, words t!" point."], t!"FIBS_ResignYouWin"),
  ([words t!"You accept and win ", rest], t!"FIBS_YouAcceptAndWin"),
  ([words t!"You reject. The game continues."], t!"FIBS_YouReject"),
  ([words t!"You win the game and get ", rest], t!"FIBS_YouWinGame"),
  ([user, words t!" wins the game and gets ", number, words t!" points. Sorry."], t!"FIBS_PlayerWinsGame"),
  ([user, words t!" wins the game and gets ", number, words t!" point. Sorry."], t!"FIBS_PlayerWinsGame"),
  ([words t!"You win the ", number, words t!" point match ", rest], t!"FIBS_YouWinMatch"),
  ([words t!"Starting a new game with ", user, words t!"."], t!"FIBS_StartingNewGame"),
  ([user, words t!" wants to play a ", number, words t!" point match with you."], t!"FIBS_NewMatchRequest"),
  ([user, words t!" wants to resume a saved match with you."], t!"FIBS_ResumeMatchRequest"),
  ([words t!"Type 'join ", user, words t!"' to accept."], t!"FIBS_TypeJoin"),
  ([words t!"You are now playing with ", user, words t!". Your running match was loaded."], t!"FIBS_ResumeMatchAck5"),
  ([words t!"match length: ", number], t!"FIBS_MatchLength"),
  ([words t!"turn: ", user, words t!"."], t!"FIBS_Turn"),
  ([words t!"Value of 'redoubles' set to ", number, words t!"."], t!"FIBS_RedoublesSetTo"),
  ([words t!"** You invited ", user, words t!" to a ", number, words t!" point match."], t!"FIBS_YouInvited"),
  ([words t!"** ", number, words t!" users heard you."], t!"FIBS_UsersHeardYou"),
  ([words t!"** ", number, words t!" user heard you."], t!"FIBS_UsersHeardYou")]

open Blank in
/-- More of them: with the name of the one it is about in front of patterns that begin in the middle of a sentence; what they should be
taken as, and what they are taken as. -/
def misheard : List (List Blank × Text × Text) := [
  ([user, words t!" doubles. Type 'accept' or 'reject'."], t!"FIBS_AcceptRejectDouble", t!"FIBS_Doubles"),
  ([user, words t!" wants to resign. You will win ", number, words t!" points. Type 'accept' or 'reject'."],
    t!"FIBS_PlayerWantsToResign", t!"FIBS_WatchResign"),
  ([user, words t!" makes the first move."], t!"FIBS_MakesFirstMove", t!"FIBS_Unknown"),
  ([user, words t!" rejects. The game continues."], t!"FIBS_ResignRefused", t!"FIBS_Unknown"),
  ([user, words t!" has joined you. Your running match was loaded."], t!"FIBS_ResumeMatchAck0", t!"FIBS_Unknown"),
  ([user, words t!" waves goodbye."], t!"FIBS_Waves", t!"FIBS_Unknown"),
  ([user, words t!" is playing with ", user, words t!"."], t!"FIBS_IsPlayingWith", t!"FIBS_Unknown"),
  ([user, words t!" has left the game."], t!"FIBS_PlayerLeftGame", t!"FIBS_Unknown")]

end Bglib.Spec
