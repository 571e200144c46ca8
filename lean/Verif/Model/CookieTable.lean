import Verif.Model.Regex
/-
The patterns of `bglib/protocol/fibs.py`, character by character.
-/
namespace Bglib

/-- Class attributes: name and list of patterns. -/
abbrev Table := List (Text × List Text)

/-- fibs.py:445-450 -/
def loginTable : Table := [
  (t!"FIBS_LoginPrompt", [t!"^login:"]),
  (t!"CLIP_WELCOME", [t!"^1 [a-zA-Z_<>]+ [0-9]+ "]),
  (t!"CLIP_OWN_INFO", [t!"^2 [a-zA-Z_<>]+ [01] [01]"]),
  (t!"CLIP_MOTD_BEGIN", [t!"^3$"]),
  (t!"FIBS_FailedLogin", [t!"^> [0-9]+"]),
  (t!"FIBS_PreLogin", [t!"^[^123>l]"])]

/-- fibs.py:462-463 -/
def motdTable : Table := [
  (t!"CLIP_MOTD_END", [t!"^4$"]),
  (t!"FIBS_MOTD", [t!"^[^4]"])]

/-- fibs.py:94-149 -/
def runSource1 : Table := [
  (t!"FIBS_Board", [t!"^board:[a-zA-Z_<>]+:[a-zA-Z_<>]+:[0-9:\\-]+$"]),
  (t!"FIBS_BAD_Board", [t!"^board:"]),
  (t!"FIBS_YouRoll", [t!"^You roll [1-6] and [1-6]"]),
  (t!"FIBS_PlayerRolls", [t!"^[a-zA-Z_<>]+ rolls [1-6] and [1-6]"]),
  (t!"FIBS_RollOrDouble", [t!"^It's your turn to roll or double\\.", t!"^It's your turn\\. Please roll or double"]),
  (t!"FIBS_AcceptRejectDouble", [t!"doubles\\. Type 'accept' or 'reject'\\."]),
  (t!"FIBS_Doubles", [t!"^[a-zA-Z_<>]+ doubles\\."]),
  (t!"FIBS_PleaseMove", [t!"^Please move [1-4] pieces?\\."]),
  (t!"FIBS_PlayerMoves", [t!"^[a-zA-Z_<>]+ moves"]),
  (t!"FIBS_BearingOff", [t!"^Bearing off:"]),
  (t!"FIBS_YouReject", [t!"^You reject\\. The game continues\\."]),
  (t!"FIBS_YouStopWatching", [t!"You're not watching anymore\\."]),
  (t!"FIBS_OpponentLogsOut", [t!"The game was saved\\."]),
  (t!"FIBS_OnlyPossibleMove", [t!"^The only possible move is"]),
  (t!"FIBS_FirstRoll", [t!"[a-zA-Z_<>]+ rolled [1-6].+rolled [1-6]"]),
  (t!"FIBS_MakesFirstMove", [t!" makes the first move\\."]),
  (t!"FIBS_YouDouble", [t!"^You double\\. Please wait for "]),
  (t!"FIBS_PlayerWantsToResign", [t!"^[a-zA-Z_<>]+ wants to resign\\. You will win [0-9]+ points?\\. Type 'accept' or 'reject'\\."]),
  (t!"FIBS_WatchResign", [t!"^[a-zA-Z_<>]+ wants to resign\\. "]),
  (t!"FIBS_YouResign", [t!"^You want to resign\\."]),
  (t!"FIBS_ResumeMatchAck5", [t!"^You are now playing with [a-zA-Z_<>]+\\. Your running match was loaded\\."]),
  (t!"FIBS_JoinNextGame", [t!"^Type 'join' if you want to play the next game, type 'leave' if you don't\\."]),
  (t!"FIBS_NewMatchRequest", [t!"^[a-zA-Z_<>]+ wants to play a [0-9]+ point match with you\\."]),
  (t!"FIBS_WARNINGSavedMatch", [t!"^WARNING: Don't accept if you want to continue"]),
  (t!"FIBS_ResignRefused", [t!"rejects\\. The game continues\\."]),
  (t!"FIBS_MatchLength", [t!"^match length:"]),
  (t!"FIBS_TypeJoin", [t!"^Type 'join [a-zA-Z_<>]+' to accept\\."]),
  (t!"FIBS_YouAreWatching", [t!"^You're now watching "]),
  (t!"FIBS_YouStopWatching", [t!"^You stop watching "]),
  (t!"FIBS_PlayerStartsWatching", [t!"[a-zA-Z_<>]+ starts watching [a-zA-Z_<>]+\\.", t!"[a-zA-Z_<>]+ is watching you\\."]),
  (t!"FIBS_PlayerStopsWatching", [t!"[a-zA-Z_<>]+ stops watching [a-zA-Z_<>]+\\."]),
  (t!"FIBS_PlayerIsWatching", [t!"[a-zA-Z_<>]+ is watching "]),
  (t!"FIBS_ResignWins", [t!"^[a-zA-Z_<>]+ gives up\\. [a-zA-Z_<>]+ wins [0-9]+ points?\\."]),
  (t!"FIBS_ResignYouWin", [t!"^[a-zA-Z_<>]+ gives up\\. You win [0-9]+ points?\\."]),
  (t!"FIBS_YouAcceptAndWin", [t!"^You accept and win"]),
  (t!"FIBS_AcceptWins", [t!"^[a-zA-Z_<>]+ accepts and wins [0-9]+ point"])]

/-- fibs.py:150-208 -/
def runSource2 : Table := [
  (t!"FIBS_PlayersStartingMatch", [t!"^[a-zA-Z_<>]+ and [a-zA-Z_<>]+ start a [0-9]+ point match"]),
  (t!"FIBS_StartingNewGame", [t!"^Starting a new game with "]),
  (t!"FIBS_YouGiveUp", [t!"^You give up\\. "]),
  (t!"FIBS_YouWinMatch", [t!"^You win the [0-9]+ point match"]),
  (t!"FIBS_PlayerWinsMatch", [t!"^[a-zA-Z_<>]+ wins the [0-9]+ point match"]),
  (t!"FIBS_ResumingUnlimitedMatch", [t!"^[a-zA-Z_<>]+ and [a-zA-Z_<>]+ are resuming their unlimited match\\."]),
  (t!"FIBS_ResumingLimitedMatch", [t!"^[a-zA-Z_<>]+ and [a-zA-Z_<>]+ are resuming their [0-9]+-point match\\."]),
  (t!"FIBS_MatchResult", [t!"^[a-zA-Z_<>]+ wins a [0-9]+ point match against "]),
  (t!"FIBS_PlayerWantsToResign", [t!"wants to resign\\."]),
  (t!"FIBS_BAD_AcceptDouble", [t!"^[a-zA-Z_<>]+ accepts? the double\\. The cube shows [0-9]+\\..+"]),
  (t!"FIBS_YouAcceptDouble", [t!"^You accept the double\\. The cube shows"]),
  (t!"FIBS_PlayerAcceptsDouble", [t!"^[a-zA-Z_<>]+ accepts the double\\. The cube shows ", t!"^[a-zA-Z_<>]+ accepts the double\\.", t!"accepts the double\\."]),
  (t!"FIBS_ResumeMatchRequest", [t!"^[a-zA-Z_<>]+ wants to resume a saved match with you\\."]),
  (t!"FIBS_ResumeMatchAck0", [t!"has joined you\\. Your running match was loaded"]),
  (t!"FIBS_YouWinGame", [t!"^You win the game and get"]),
  (t!"FIBS_UnlimitedInvite", [t!"^[a-zA-Z_<>]+ wants to play an unlimted match with you\\."]),
  (t!"FIBS_PlayerWinsGame", [t!"^[a-zA-Z_<>]+ wins the game and gets [0-9]+ points?. Sorry.", t!"^[a-zA-Z_<>]+ wins the game and gets [0-9]+ points?."]),
  (t!"FIBS_WatchGameWins", [t!"wins the game and gets"]),
  (t!"FIBS_PlayersStartingUnlimitedMatch", [t!"start an unlimited match\\."]),
  (t!"FIBS_ReportLimitedMatch", [t!"^[a-zA-Z_<>]+ +- +[a-zA-Z_<>]+ .+ point match"]),
  (t!"FIBS_ReportUnlimitedMatch", [t!"^[a-zA-Z_<>]+ +- +[a-zA-Z_<>]+ \\(unlimited"]),
  (t!"FIBS_ShowMovesStart", [t!"^[a-zA-Z_<>]+ is X - [a-zA-Z_<>]+ is O"]),
  (t!"FIBS_ShowMovesRoll", [t!"^[XO]: \\([1-6]"]),
  (t!"FIBS_ShowMovesWins", [t!"^[XO]: wins"]),
  (t!"FIBS_ShowMovesDoubles", [t!"^[XO]: doubles"]),
  (t!"FIBS_ShowMovesAccepts", [t!"^[XO]: accepts"]),
  (t!"FIBS_ShowMovesRejects", [t!"^[XO]: rejects"]),
  (t!"FIBS_ShowMovesOther", [t!"^[XO]:"]),
  (t!"FIBS_ScoreUpdate", [t!"^score in [0-9]+ point match:"]),
  (t!"FIBS_MatchStart", [t!"^Score is [0-9]+-[0-9]+ in a [0-9]+ point match\\."]),
  (t!"FIBS_Settings", [t!"^Settings of variables:"]),
  (t!"FIBS_Turn", [t!"^turn:"]),
  (t!"FIBS_Boardstyle", [t!"^boardstyle:"]),
  (t!"FIBS_Linelength", [t!"^linelength:"]),
  (t!"FIBS_Pagelength", [t!"^pagelength:"]),
  (t!"FIBS_Redoubles", [t!"^redoubles:"])]

/-- fibs.py:209-247 -/
def runSource3 : Table := [
  (t!"FIBS_Sortwho", [t!"^sortwho:"]),
  (t!"FIBS_Timezone", [t!"^timezone:"]),
  (t!"FIBS_CantMove", [t!"^[a-zA-Z_<>]+ can't move"]),
  (t!"FIBS_ListOfGames", [t!"^List of games:"]),
  (t!"FIBS_PlayerInfoStart", [t!"^Information about"]),
  (t!"FIBS_EmailAddress", [t!"^  Email address:"]),
  (t!"FIBS_NoEmail", [t!"^  No email address\\."]),
  (t!"FIBS_WavesAgain", [t!"^[a-zA-Z_<>]+ waves goodbye again\\."]),
  (t!"FIBS_Waves", [t!"waves goodbye", t!"^You wave goodbye\\."]),
  (t!"FIBS_WavesAgain", [t!"^You wave goodbye again and log out\\."]),
  (t!"FIBS_NoSavedGames", [t!"^no saved games\\."]),
  (t!"FIBS_TypeBack", [t!"^You're away\\. Please type 'back'"]),
  (t!"FIBS_SavedMatch", [t!"^  [a-zA-Z_<>]+ +[0-9]+ +[0-9]+ +- +"]),
  (t!"FIBS_SavedMatchPlaying", [t!"^ \\*[a-zA-Z_<>]+ +[0-9]+ +[0-9]+ +- +"]),
  (t!"FIBS_PlayerIsWaitingForYou", [t!"^[a-zA-Z_<>]+ is waiting for you to log in\\."]),
  (t!"FIBS_IsAway", [t!"^[a-zA-Z_<>]+ is away: "]),
  (t!"FIBS_AllowpipTrue", [t!"^allowpip +YES"]),
  (t!"FIBS_AllowpipFalse", [t!"^allowpip +NO"]),
  (t!"FIBS_AutoboardTrue", [t!"^autoboard +YES"]),
  (t!"FIBS_AutoboardFalse", [t!"^autoboard +NO"]),
  (t!"FIBS_AutodoubleTrue", [t!"^autodouble +YES"]),
  (t!"FIBS_AutodoubleFalse", [t!"^autodouble +NO"]),
  (t!"FIBS_AutomoveTrue", [t!"^automove +YES"]),
  (t!"FIBS_AutomoveFalse", [t!"^automove +NO"]),
  (t!"FIBS_BellTrue", [t!"^bell +YES"]),
  (t!"FIBS_BellFalse", [t!"^bell +NO"]),
  (t!"FIBS_CrawfordTrue", [t!"^crawford +YES"]),
  (t!"FIBS_CrawfordFalse", [t!"^crawford +NO"]),
  (t!"FIBS_DoubleTrue", [t!"^double +YES"]),
  (t!"FIBS_DoubleFalse", [t!"^double +NO"]),
  (t!"FIBS_MoreboardsTrue", [t!"^moreboards +YES"]),
  (t!"FIBS_MoreboardsFalse", [t!"^moreboards +NO"]),
  (t!"FIBS_MovesTrue", [t!"^moves +YES"]),
  (t!"FIBS_MovesFalse", [t!"^moves +NO"]),
  (t!"FIBS_GreedyTrue", [t!"^greedy +YES"]),
  (t!"FIBS_GreedyFalse", [t!"^greedy +NO"])]

/-- fibs.py:248-299 -/
def runSource4 : Table := [
  (t!"FIBS_NotifyTrue", [t!"^notify +YES"]),
  (t!"FIBS_NotifyFalse", [t!"^notify +NO"]),
  (t!"FIBS_RatingsTrue", [t!"^ratings +YES"]),
  (t!"FIBS_RatingsFalse", [t!"^ratings +NO"]),
  (t!"FIBS_ReadyTrue", [t!"^ready +YES"]),
  (t!"FIBS_ReadyFalse", [t!"^ready +NO"]),
  (t!"FIBS_ReportTrue", [t!"^report +YES"]),
  (t!"FIBS_ReportFalse", [t!"^report +NO"]),
  (t!"FIBS_SilentTrue", [t!"^silent +YES"]),
  (t!"FIBS_SilentFalse", [t!"^silent +NO"]),
  (t!"FIBS_TelnetTrue", [t!"^telnet +YES"]),
  (t!"FIBS_TelnetFalse", [t!"^telnet +NO"]),
  (t!"FIBS_WrapTrue", [t!"^wrap +YES"]),
  (t!"FIBS_WrapFalse", [t!"^wrap +NO"]),
  (t!"FIBS_Junk", [t!"^Closed old connection with user"]),
  (t!"FIBS_Done", [t!"^Done\\."]),
  (t!"FIBS_YourTurnToMove", [t!"^It's your turn to move\\."]),
  (t!"FIBS_SavedMatchesHeader", [t!"^  opponent          matchlength   score \\(your points first\\)"]),
  (t!"FIBS_MessagesForYou", [t!"^There are messages for you:"]),
  (t!"FIBS_RedoublesSetTo", [t!"^Value of 'redoubles' set to [0-9]+\\."]),
  (t!"FIBS_DoublingCubeNow", [t!"^The number on the doubling cube is now [0-9]+"]),
  (t!"FIBS_FailedLogin", [t!"^> [0-9]+"]),
  (t!"FIBS_Average", [t!"^Time (UTC)  average min max"]),
  (t!"FIBS_DiceTest", [t!"^[nST]: "]),
  (t!"FIBS_LastLogout", [t!"^  Last logout:"]),
  (t!"FIBS_RatingCalcStart", [t!"^rating calculation:"]),
  (t!"FIBS_RatingCalcInfo", [t!"^Probability that underdog wins:", t!"is 1-Pu if underdog wins", t!"^Experience: ", t!"^K=max\\(1", t!"^rating difference", t!"^change for", t!"^match length  "]),
  (t!"FIBS_WatchingHeader", [t!"^Watching players:"]),
  (t!"FIBS_SettingsHeader", [t!"^The current settings are:"]),
  (t!"FIBS_AwayListHeader", [t!"^The following users are away:"]),
  (t!"FIBS_RatingExperience", [t!"^  Rating: +[0-9]+\\."]),
  (t!"FIBS_NotLoggedIn", [t!"^  Not logged in right now\\."]),
  (t!"FIBS_IsPlayingWith", [t!"is playing with"]),
  (t!"FIBS_SavedScoreHeader", [t!"^opponent +matchlength"]),
  (t!"FIBS_StillLoggedIn", [t!"^  Still logged in\\."]),
  (t!"FIBS_NoOneIsAway", [t!"^None of the users is away\\."])]

/-- fibs.py:300-362 -/
def runSource5 : Table := [
  (t!"FIBS_PlayerListHeader", [t!"^No  S  username        rating  exp login    idle  from"]),
  (t!"FIBS_RatingsHeader", [t!"^ rank name            rating    Experience"]),
  (t!"FIBS_ClearScreen", [t!"^.\\[;H.\\[2J"]),
  (t!"FIBS_Timeout", [t!"^Connection timed out\\."]),
  (t!"FIBS_Goodbye", [t!"           Goodbye\\."]),
  (t!"FIBS_LastLogin", [t!"^  Last login:"]),
  (t!"FIBS_NoInfo", [t!"^No information found on user"]),
  (t!"CLIP_WHO_INFO", [t!"^5 [^ ]+ - - [01]", t!"^5 [^ ]+ [^ ]+ - [01]", t!"^5 [^ ]+ - [^ ]+ [01]"]),
  (t!"FIBS_Average", [t!"^[0-9][0-9]:[0-9][0-9]-"]),
  (t!"FIBS_DiceTest", [t!"^[1-6]-1 [0-9]", t!"^[1-6]: [0-9]"]),
  (t!"FIBS_Stat", [t!"^[0-9]+ bytes", t!"^[0-9]+ accounts", t!"^[0-9]+ ratings saved. reset log", t!"^[0-9]+ registered users.", t!"^[0-9]+\\([0-9]+\\) saved games check by cron"]),
  (t!"CLIP_WHO_END", [t!"^6$"]),
  (t!"CLIP_SHOUTS", [t!"^13 [a-zA-Z_<>]+ "]),
  (t!"CLIP_SAYS", [t!"^12 [a-zA-Z_<>]+ "]),
  (t!"CLIP_WHISPERS", [t!"^14 [a-zA-Z_<>]+ "]),
  (t!"CLIP_KIBITZES", [t!"^15 [a-zA-Z_<>]+ "]),
  (t!"CLIP_YOU_SAY", [t!"^16 [a-zA-Z_<>]+ "]),
  (t!"CLIP_YOU_SHOUT", [t!"^17 "]),
  (t!"CLIP_YOU_WHISPER", [t!"^18 "]),
  (t!"CLIP_YOU_KIBITZ", [t!"^19 "]),
  (t!"CLIP_LOGIN", [t!"^7 [a-zA-Z_<>]+ "]),
  (t!"CLIP_LOGOUT", [t!"^8 [a-zA-Z_<>]+ "]),
  (t!"CLIP_MESSAGE", [t!"^9 [a-zA-Z_<>]+ [0-9]+ "]),
  (t!"CLIP_MESSAGE_DELIVERED", [t!"^10 [a-zA-Z_<>]+$"]),
  (t!"CLIP_MESSAGE_SAVED", [t!"^11 [a-zA-Z_<>]+$"]),
  (t!"FIBS_Username", [t!"^\\*\\* User"]),
  (t!"FIBS_Junk", [t!"^\\*\\* You tell "]),
  (t!"FIBS_YouGag", [t!"^\\*\\* You gag"]),
  (t!"FIBS_YouUngag", [t!"^\\*\\* You ungag"]),
  (t!"FIBS_YouBlind", [t!"^\\*\\* You blind"]),
  (t!"FIBS_YouUnblind", [t!"^\\*\\* You unblind"]),
  (t!"FIBS_UseToggleReady", [t!"^\\*\\* Use 'toggle ready' first"]),
  (t!"FIBS_NewMatchAck9", [t!"^\\*\\* You are now playing an unlimited match with "]),
  (t!"FIBS_NewMatchAck10", [t!"^\\*\\* You are now playing a [0-9]+ point match with "]),
  (t!"FIBS_NewMatchAck2", [t!"^\\*\\* Player [a-zA-Z_<>]+ has joined you for a"]),
  (t!"FIBS_YouTerminated", [t!"^\\*\\* You terminated the game"])]

/-- fibs.py:363-400 -/
def runSource6 : Table := [
  (t!"FIBS_OpponentLeftGame", [t!"^\\*\\* Player [a-zA-Z_<>]+ has left the game. The game was saved\\."]),
  (t!"FIBS_PlayerLeftGame", [t!"has left the game\\."]),
  (t!"FIBS_YouInvited", [t!"^\\*\\* You invited"]),
  (t!"FIBS_YourLastLogin", [t!"^\\*\\* Last login:"]),
  (t!"FIBS_NoOne", [t!"^\\*\\* There is no one called"]),
  (t!"FIBS_AllowpipFalse", [t!"^\\*\\* You don't allow the use of the server's 'pip' command\\."]),
  (t!"FIBS_AllowpipTrue", [t!"^\\*\\* You allow the use the server's 'pip' command\\."]),
  (t!"FIBS_AutoboardFalse", [t!"^\\*\\* The board won't be refreshed"]),
  (t!"FIBS_AutoboardTrue", [t!"^\\*\\* The board will be refreshed"]),
  (t!"FIBS_AutodoubleTrue", [t!"^\\*\\* You agree that doublets"]),
  (t!"FIBS_AutodoubleFalse", [t!"^\\*\\* You don't agree that doublets"]),
  (t!"FIBS_AutomoveFalse", [t!"^\\*\\* Forced moves won't"]),
  (t!"FIBS_AutomoveTrue", [t!"^\\*\\* Forced moves will"]),
  (t!"FIBS_BellFalse", [t!"^\\*\\* Your terminal won't ring"]),
  (t!"FIBS_BellTrue", [t!"^\\*\\* Your terminal will ring"]),
  (t!"FIBS_CrawfordFalse", [t!"^\\*\\* You would like to play without using the Crawford rule\\."]),
  (t!"FIBS_CrawfordTrue", [t!"^\\*\\* You insist on playing with the Crawford rule\\."]),
  (t!"FIBS_DoubleFalse", [t!"^\\*\\* You won't be asked if you want to double\\."]),
  (t!"FIBS_DoubleTrue", [t!"^\\*\\* You will be asked if you want to double\\."]),
  (t!"FIBS_GreedyTrue", [t!"^\\*\\* Will use automatic greedy bearoffs\\."]),
  (t!"FIBS_GreedyFalse", [t!"^\\*\\* Won't use automatic greedy bearoffs\\."]),
  (t!"FIBS_MoreboardsTrue", [t!"^\\*\\* Will send rawboards after rolling\\."]),
  (t!"FIBS_MoreboardsFalse", [t!"^\\*\\* Won't send rawboards after rolling\\."]),
  (t!"FIBS_MovesTrue", [t!"^\\*\\* You want a list of moves after this game\\."]),
  (t!"FIBS_MovesFalse", [t!"^\\*\\* You won't see a list of moves after this game\\."]),
  (t!"FIBS_NotifyFalse", [t!"^\\*\\* You won't be notified"]),
  (t!"FIBS_NotifyTrue", [t!"^\\*\\* You'll be notified"]),
  (t!"FIBS_RatingsTrue", [t!"^\\*\\* You'll see how the rating changes are calculated\\."]),
  (t!"FIBS_RatingsFalse", [t!"^\\*\\* You won't see how the rating changes are calculated\\."]),
  (t!"FIBS_ReadyTrue", [t!"^\\*\\* You're now ready to invite or join someone\\."]),
  (t!"FIBS_ReadyFalse", [t!"^\\*\\* You're now refusing to play with someone\\."]),
  (t!"FIBS_ReportFalse", [t!"^\\*\\* You won't be informed"]),
  (t!"FIBS_ReportTrue", [t!"^\\*\\* You will be informed"]),
  (t!"FIBS_SilentTrue", [t!"^\\*\\* You won't hear what other players shout\\."]),
  (t!"FIBS_SilentFalse", [t!"^\\*\\* You will hear what other players shout\\."]),
  (t!"FIBS_TelnetFalse", [t!"^\\*\\* You use a client program"])]

/-- fibs.py:401-441 -/
def runSource7 : Table := [
  (t!"FIBS_TelnetTrue", [t!"^\\*\\* You use telnet"]),
  (t!"FIBS_WrapFalse", [t!"^\\*\\* The server will wrap"]),
  (t!"FIBS_WrapTrue", [t!"^\\*\\* Your terminal knows how to wrap"]),
  (t!"FIBS_PlayerRefusingGames", [t!"^\\*\\* [a-zA-Z_<>]+ is refusing games\\."]),
  (t!"FIBS_NotWatching", [t!"^\\*\\* You're not watching\\."]),
  (t!"FIBS_NotWatchingPlaying", [t!"^\\*\\* You're not watching or playing\\."]),
  (t!"FIBS_NotPlaying", [t!"^\\*\\* You're not playing\\."]),
  (t!"FIBS_NoUser", [t!"^\\*\\* There is no one called "]),
  (t!"FIBS_AlreadyPlaying", [t!"is already playing with"]),
  (t!"FIBS_DidntInvite", [t!"^\\*\\* [a-zA-Z_<>]+ didn't invite you."]),
  (t!"FIBS_BadMove", [t!"^\\*\\* You can't remove this piece"]),
  (t!"FIBS_CantMoveFirstMove", [t!"^\\*\\* You can't move "]),
  (t!"FIBS_CantShout", [t!"^\\*\\* Please type 'toggle silent' again before you shout\\."]),
  (t!"FIBS_MustMove", [t!"^\\*\\* You must give [1-4] moves"]),
  (t!"FIBS_MustComeIn", [t!"^\\*\\* You have to remove pieces from the bar in your first move\\."]),
  (t!"FIBS_UsersHeardYou", [t!"^\\*\\* [0-9]+ users? heard you\\."]),
  (t!"FIBS_Junk", [t!"^\\*\\* Please wait for [a-zA-Z_<>]+ to join too\\."]),
  (t!"FIBS_SavedMatchReady", [t!"^\\*\\*[a-zA-Z_<>]+ +[0-9]+ +[0-9]+ +- +[0-9]+"]),
  (t!"FIBS_NotYourTurnToRoll", [t!"^\\*\\* It's not your turn to roll the dice\\."]),
  (t!"FIBS_NotYourTurnToMove", [t!"^\\*\\* It's not your turn to move\\."]),
  (t!"FIBS_YouStopWatching", [t!"^\\*\\* You stop watching"]),
  (t!"FIBS_UnknownCommand", [t!"^\\*\\* Unknown command:"]),
  (t!"FIBS_CantWatch", [t!"^\\*\\* You can't watch another game while you're playing\\."]),
  (t!"FIBS_CantInviteSelf", [t!"^\\*\\* You can't invite yourself\\."]),
  (t!"FIBS_DontKnowUser", [t!"^\\*\\* Don't know user"]),
  (t!"FIBS_MessageUsage", [t!"^\\*\\* usage: message <user> <text>"]),
  (t!"FIBS_PlayerNotPlaying", [t!"^\\*\\* [a-zA-Z_<>]+ is not playing\\."]),
  (t!"FIBS_CantTalk", [t!"^\\*\\* You can't talk if you won't listen\\."]),
  (t!"FIBS_WontListen", [t!"^\\*\\* [a-zA-Z_<>]+ won't listen to you\\."]),
  (t!"FIBS_Why", [t!"Why would you want to do that"]),
  (t!"FIBS_Ratings", [t!"^\\* *[0-9]+ +[a-zA-Z_<>]+ +[0-9]+\\.[0-9]+ +[0-9]+"]),
  (t!"FIBS_NoSavedMatch", [t!"^\\*\\* There's no saved match with "]),
  (t!"FIBS_WARNINGSavedMatch", [t!"^\\*\\* WARNING: Don't accept if you want to continue"]),
  (t!"FIBS_CantGagYourself", [t!"^\\*\\* You talk too much, don't you\\?"]),
  (t!"FIBS_CantBlindYourself", [t!"^\\*\\* You can't read this message now, can you\\?"])]

/-- fibs.py:94-441: all assignments in the class body, in order; some names are assigned more than
once. -/
def runSource : Table :=
  runSource1 ++ runSource2 ++ runSource3 ++ runSource4 ++ runSource5 ++ runSource6 ++ runSource7

end Bglib
