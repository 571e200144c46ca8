import Verif.Lemmas.ImportChecks.Base
/-
The checks of the other modules.
-/
namespace Bglib.Import
set_option maxRecDepth 100000

theorem checked_bglib : Checked m_bglib := by decide +kernel
theorem checked_bglib_encoding : Checked m_bglib_encoding := by decide +kernel
theorem checked_bglib_encoding_FIBS : Checked m_bglib_encoding_FIBS := by decide +kernel
theorem checked_bglib_encoding_bearoff : Checked m_bglib_encoding_bearoff := by decide +kernel
theorem checked_bglib_encoding_bearoff_gnubgdb : Checked m_bglib_encoding_bearoff_gnubgdb := by decide +kernel
theorem checked_bglib_encoding_bearoff_nori : Checked m_bglib_encoding_bearoff_nori := by decide +kernel
theorem checked_bglib_encoding_bearoff_t2k : Checked m_bglib_encoding_bearoff_t2k := by decide +kernel
theorem checked_bglib_encoding_bearoff_trice : Checked m_bglib_encoding_bearoff_trice := by decide +kernel
theorem checked_bglib_encoding_dbbyte : Checked m_bglib_encoding_dbbyte := by decide +kernel
theorem checked_bglib_encoding_gnubgid : Checked m_bglib_encoding_gnubgid := by decide +kernel
theorem checked_bglib_encoding_xgid : Checked m_bglib_encoding_xgid := by decide +kernel
theorem checked_bglib_model : Checked m_bglib_model := by decide +kernel
theorem checked_bglib_model_board : Checked m_bglib_model_board := by decide +kernel
theorem checked_bglib_model_boardeditor : Checked m_bglib_model_boardeditor := by decide +kernel
theorem checked_bglib_model_constants : Checked m_bglib_model_constants := by decide +kernel
theorem checked_bglib_model_model : Checked m_bglib_model_model := by decide +kernel
theorem checked_bglib_model_move : Checked m_bglib_model_move := by decide +kernel
theorem checked_bglib_model_util : Checked m_bglib_model_util := by decide +kernel
theorem checked_bglib_protocol : Checked m_bglib_protocol := by decide +kernel
theorem checked_bglib_protocol_fibs : Checked m_bglib_protocol_fibs := by decide +kernel
theorem checked_bglib_protocol_networkplayer : Checked m_bglib_protocol_networkplayer := by decide +kernel
theorem checked_bglib_protocol_session : Checked m_bglib_protocol_session := by decide +kernel
theorem checked_bglib_record : Checked m_bglib_record := by decide +kernel
theorem checked_bglib_record_gnubg : Checked m_bglib_record_gnubg := by decide +kernel
theorem checked_bglib_record_snowietxt : Checked m_bglib_record_snowietxt := by decide +kernel
theorem checked_bglib_stat : Checked m_bglib_stat := by decide +kernel
theorem checked_bglib_stat_rating : Checked m_bglib_stat_rating := by decide +kernel
theorem checked_bglib_stat_tourney : Checked m_bglib_stat_tourney := by decide +kernel

end Bglib.Import
