import Verif.Proofs.ParsedS
/-
Every production of the refined grammar preserves the properties `P`.
-/
namespace Verif.Round
open Verif Verif.Syntax Verif.Lexer Verif.Print Verif.Parser Verif.Grammar Verif.Props.Grammar

theorem parsed_steps : ∀ q ∈ fine, Step q := by
  unfold fine
  refine List.forall_mem_cons.2 ⟨st1f, ?_⟩
  refine List.forall_mem_cons.2 ⟨st2s, ?_⟩
  refine List.forall_mem_cons.2 ⟨st3s, ?_⟩
  refine List.forall_mem_cons.2 ⟨st_true (fun _ _ => rfl), ?_⟩
  refine List.forall_mem_cons.2 ⟨st_true (fun _ _ => rfl), ?_⟩
  refine List.forall_mem_cons.2 ⟨st6s, ?_⟩
  refine List.forall_mem_cons.2 ⟨st7s, ?_⟩
  refine List.forall_mem_cons.2 ⟨st8s, ?_⟩
  refine List.forall_mem_cons.2 ⟨st9s, ?_⟩
  refine List.forall_mem_cons.2 ⟨st10s, ?_⟩
  refine List.forall_mem_cons.2 ⟨st10s, ?_⟩
  refine List.forall_mem_cons.2 ⟨st11s, ?_⟩
  refine List.forall_mem_cons.2 ⟨st12s, ?_⟩
  refine List.forall_mem_cons.2 ⟨st13s, ?_⟩
  refine List.forall_mem_cons.2 ⟨st14s, ?_⟩
  refine List.forall_mem_cons.2 ⟨st14s, ?_⟩
  refine List.forall_mem_cons.2 ⟨st15s, ?_⟩
  refine List.forall_mem_cons.2 ⟨st16s, ?_⟩
  refine List.forall_mem_cons.2 ⟨st17s, ?_⟩
  refine List.forall_mem_cons.2 ⟨st18s, ?_⟩
  refine List.forall_mem_cons.2 ⟨st18s, ?_⟩
  refine List.forall_mem_cons.2 ⟨st19s, ?_⟩
  refine List.forall_mem_cons.2 ⟨st19s, ?_⟩
  refine List.forall_mem_cons.2 ⟨st20s, ?_⟩
  refine List.forall_mem_cons.2 ⟨st20s, ?_⟩
  refine List.forall_mem_cons.2 ⟨st21s, ?_⟩
  refine List.forall_mem_cons.2 ⟨st21s, ?_⟩
  refine List.forall_mem_cons.2 ⟨st22s, ?_⟩
  refine List.forall_mem_cons.2 ⟨st22s, ?_⟩
  refine List.forall_mem_cons.2 ⟨st23s, ?_⟩
  refine List.forall_mem_cons.2 ⟨st23s, ?_⟩
  refine List.forall_mem_cons.2 ⟨st24s, ?_⟩
  refine List.forall_mem_cons.2 ⟨st24s, ?_⟩
  refine List.forall_mem_cons.2 ⟨st_true (fun _ _ => rfl), ?_⟩
  refine List.forall_mem_cons.2 ⟨st_true (fun _ _ => rfl), ?_⟩
  refine List.forall_mem_cons.2 ⟨st27s, ?_⟩
  refine List.forall_mem_cons.2 ⟨st28s, ?_⟩
  refine List.forall_mem_cons.2 ⟨st29s, ?_⟩
  refine List.forall_mem_cons.2 ⟨st30s, ?_⟩
  refine List.forall_mem_cons.2 ⟨st31s, ?_⟩
  refine List.forall_mem_cons.2 ⟨st32s, ?_⟩
  refine List.forall_mem_cons.2 ⟨st33s, ?_⟩
  refine List.forall_mem_cons.2 ⟨st34s, ?_⟩
  refine List.forall_mem_cons.2 ⟨st_branch b!"pass" (by decide) (by decide) (by decide) (fun _ => rfl), ?_⟩
  refine List.forall_mem_cons.2 ⟨st_branch b!"break" (by decide) (by decide) (by decide) (fun _ => rfl), ?_⟩
  refine List.forall_mem_cons.2 ⟨st_branch b!"continue" (by decide) (by decide) (by decide) (fun _ => rfl), ?_⟩
  refine List.forall_mem_cons.2 ⟨st_true (fun _ _ => rfl), ?_⟩
  refine List.forall_mem_cons.2 ⟨st_true (fun _ _ => rfl), ?_⟩
  refine List.forall_mem_cons.2 ⟨st40, ?_⟩
  refine List.forall_mem_cons.2 ⟨st41, ?_⟩
  refine List.forall_mem_cons.2 ⟨st41i, ?_⟩
  refine List.forall_mem_cons.2 ⟨st42, ?_⟩
  refine List.forall_mem_cons.2 ⟨st43, ?_⟩
  refine List.forall_mem_cons.2 ⟨st44, ?_⟩
  refine List.forall_mem_cons.2 ⟨st45, ?_⟩
  refine List.forall_mem_cons.2 ⟨st46, ?_⟩
  refine List.forall_mem_cons.2 ⟨st47, ?_⟩
  refine List.forall_mem_cons.2 ⟨st48, ?_⟩
  refine List.forall_mem_cons.2 ⟨st49, ?_⟩
  refine List.forall_mem_cons.2 ⟨st50, ?_⟩
  refine List.forall_mem_cons.2 ⟨st51, ?_⟩
  refine List.forall_mem_cons.2 ⟨st52, ?_⟩
  refine List.forall_mem_cons.2 ⟨st53, ?_⟩
  refine List.forall_mem_cons.2 ⟨st54, ?_⟩
  refine List.forall_mem_cons.2 ⟨st55, ?_⟩
  refine List.forall_mem_cons.2 ⟨st56, ?_⟩
  refine List.forall_mem_cons.2 ⟨st57, ?_⟩
  refine List.forall_mem_cons.2 ⟨st58, ?_⟩
  refine List.forall_mem_cons.2 ⟨st59, ?_⟩
  refine List.forall_mem_cons.2 ⟨st60, ?_⟩
  refine List.forall_mem_cons.2 ⟨st61, ?_⟩
  refine List.forall_mem_cons.2 ⟨st62, ?_⟩
  refine List.forall_mem_cons.2 ⟨st63, ?_⟩
  refine List.forall_mem_cons.2 ⟨st64, ?_⟩
  refine List.forall_mem_cons.2 ⟨st65, ?_⟩
  refine List.forall_mem_cons.2 ⟨st66, ?_⟩
  refine List.forall_mem_cons.2 ⟨st67, ?_⟩
  refine List.forall_mem_cons.2 ⟨st68, ?_⟩
  refine List.forall_mem_cons.2 ⟨st69, ?_⟩
  refine List.forall_mem_cons.2 ⟨st70, ?_⟩
  refine List.forall_mem_cons.2 ⟨st71, ?_⟩
  refine List.forall_mem_cons.2 ⟨st72, ?_⟩
  refine List.forall_mem_cons.2 ⟨st73, ?_⟩
  refine List.forall_mem_cons.2 ⟨st74, ?_⟩
  refine List.forall_mem_cons.2 ⟨st75, ?_⟩
  refine List.forall_mem_cons.2 ⟨st76, ?_⟩
  refine List.forall_mem_cons.2 ⟨st77, ?_⟩
  refine List.forall_mem_cons.2 ⟨st78, ?_⟩
  refine List.forall_mem_cons.2 ⟨st79, ?_⟩
  refine List.forall_mem_cons.2 ⟨st80, ?_⟩
  refine List.forall_mem_cons.2 ⟨st81, ?_⟩
  refine List.forall_mem_cons.2 ⟨st82, ?_⟩
  refine List.forall_mem_cons.2 ⟨st83, ?_⟩
  refine List.forall_mem_cons.2 ⟨st84, ?_⟩
  refine List.forall_mem_cons.2 ⟨st85, ?_⟩
  refine List.forall_mem_cons.2 ⟨st86, ?_⟩
  refine List.forall_mem_cons.2 ⟨st87, ?_⟩
  refine List.forall_mem_cons.2 ⟨st88, ?_⟩
  refine List.forall_mem_cons.2 ⟨st118, ?_⟩
  refine List.forall_mem_cons.2 ⟨st119, ?_⟩
  refine List.forall_mem_cons.2 ⟨st120, ?_⟩
  refine List.forall_mem_cons.2 ⟨st121, ?_⟩
  refine List.forall_mem_cons.2 ⟨st122, ?_⟩
  refine List.forall_mem_cons.2 ⟨st123, ?_⟩
  refine List.forall_mem_cons.2 ⟨st_true (fun _ _ => rfl), ?_⟩
  refine List.forall_mem_cons.2 ⟨st_true (fun _ _ => rfl), ?_⟩
  refine List.forall_mem_cons.2 ⟨st_true (fun _ _ => rfl), ?_⟩
  refine List.forall_mem_cons.2 ⟨st_true (fun _ _ => rfl), ?_⟩
  refine List.forall_mem_cons.2 ⟨st_true (fun _ _ => rfl), ?_⟩
  refine List.forall_mem_cons.2 ⟨st_true (fun _ _ => rfl), ?_⟩
  refine List.forall_mem_cons.2 ⟨st130, ?_⟩
  refine List.forall_mem_cons.2 ⟨st131, ?_⟩
  refine List.forall_mem_cons.2 ⟨st132, ?_⟩
  refine List.forall_mem_cons.2 ⟨st133, ?_⟩
  refine List.forall_mem_cons.2 ⟨st134, ?_⟩
  refine List.forall_mem_cons.2 ⟨st135, ?_⟩
  refine List.forall_mem_cons.2 ⟨st136, ?_⟩
  refine List.forall_mem_cons.2 ⟨st137, ?_⟩
  refine List.forall_mem_cons.2 ⟨st138, ?_⟩
  refine List.forall_mem_cons.2 ⟨st139, ?_⟩
  refine List.forall_mem_cons.2 ⟨st140, ?_⟩
  refine List.forall_mem_cons.2 ⟨st141, ?_⟩
  refine List.forall_mem_cons.2 ⟨st142, ?_⟩
  refine List.forall_mem_cons.2 ⟨st143, ?_⟩
  refine List.forall_mem_cons.2 ⟨st144, ?_⟩
  refine List.forall_mem_cons.2 ⟨st144, ?_⟩
  refine List.forall_mem_cons.2 ⟨st145, ?_⟩
  refine List.forall_mem_cons.2 ⟨st145, ?_⟩
  refine List.forall_mem_cons.2 ⟨st146, ?_⟩
  refine List.forall_mem_cons.2 ⟨st146, ?_⟩
  refine List.forall_mem_cons.2 ⟨st147, ?_⟩
  refine List.forall_mem_cons.2 ⟨st147, ?_⟩
  refine List.forall_mem_cons.2 ⟨st148, ?_⟩
  refine List.forall_mem_cons.2 ⟨st148, ?_⟩
  refine List.forall_mem_cons.2 ⟨st_any, ?_⟩
  refine List.forall_mem_cons.2 ⟨st_any, ?_⟩
  refine List.forall_mem_cons.2 ⟨st117, ?_⟩
  refine List.forall_mem_cons.2 ⟨st_up (by decide) (by decide), ?_⟩
  refine List.forall_mem_cons.2 ⟨st116, ?_⟩
  refine List.forall_mem_cons.2 ⟨st_up (by decide) (by decide), ?_⟩
  refine List.forall_mem_cons.2 ⟨st_bin b!"or" (by decide) (by decide) (by decide) (by decide) (by decide) (by decide) (fun _ _ _ => rfl), ?_⟩
  refine List.forall_mem_cons.2 ⟨st_up (by decide) (by decide), ?_⟩
  refine List.forall_mem_cons.2 ⟨st_bin b!"and" (by decide) (by decide) (by decide) (by decide) (by decide) (by decide) (fun _ _ _ => rfl), ?_⟩
  refine List.forall_mem_cons.2 ⟨st_up (by decide) (by decide), ?_⟩
  refine List.forall_mem_cons.2 ⟨st_bin b!"<" (by decide) (by decide) (by decide) (by decide) (by decide) (by decide) (fun _ _ _ => rfl), ?_⟩
  refine List.forall_mem_cons.2 ⟨st_bin b!">" (by decide) (by decide) (by decide) (by decide) (by decide) (by decide) (fun _ _ _ => rfl), ?_⟩
  refine List.forall_mem_cons.2 ⟨st_bin b!"==" (by decide) (by decide) (by decide) (by decide) (by decide) (by decide) (fun _ _ _ => rfl), ?_⟩
  refine List.forall_mem_cons.2 ⟨st_bin b!"<=" (by decide) (by decide) (by decide) (by decide) (by decide) (by decide) (fun _ _ _ => rfl), ?_⟩
  refine List.forall_mem_cons.2 ⟨st_bin b!"!=" (by decide) (by decide) (by decide) (by decide) (by decide) (by decide) (fun _ _ _ => rfl), ?_⟩
  refine List.forall_mem_cons.2 ⟨st_bin b!">=" (by decide) (by decide) (by decide) (by decide) (by decide) (by decide) (fun _ _ _ => rfl), ?_⟩
  refine List.forall_mem_cons.2 ⟨st_bin b!"in" (by decide) (by decide) (by decide) (by decide) (by decide) (by decide) (fun _ _ _ => rfl), ?_⟩
  refine List.forall_mem_cons.2 ⟨st_notIn (by decide) (by decide) (by decide), ?_⟩
  refine List.forall_mem_cons.2 ⟨st_up (by decide) (by decide), ?_⟩
  refine List.forall_mem_cons.2 ⟨st_bin b!"|" (by decide) (by decide) (by decide) (by decide) (by decide) (by decide) (fun _ _ _ => rfl), ?_⟩
  refine List.forall_mem_cons.2 ⟨st_up (by decide) (by decide), ?_⟩
  refine List.forall_mem_cons.2 ⟨st_bin b!"^" (by decide) (by decide) (by decide) (by decide) (by decide) (by decide) (fun _ _ _ => rfl), ?_⟩
  refine List.forall_mem_cons.2 ⟨st_up (by decide) (by decide), ?_⟩
  refine List.forall_mem_cons.2 ⟨st_bin b!"&" (by decide) (by decide) (by decide) (by decide) (by decide) (by decide) (fun _ _ _ => rfl), ?_⟩
  refine List.forall_mem_cons.2 ⟨st_up (by decide) (by decide), ?_⟩
  refine List.forall_mem_cons.2 ⟨st_bin b!"<<" (by decide) (by decide) (by decide) (by decide) (by decide) (by decide) (fun _ _ _ => rfl), ?_⟩
  refine List.forall_mem_cons.2 ⟨st_bin b!">>" (by decide) (by decide) (by decide) (by decide) (by decide) (by decide) (fun _ _ _ => rfl), ?_⟩
  refine List.forall_mem_cons.2 ⟨st_up (by decide) (by decide), ?_⟩
  refine List.forall_mem_cons.2 ⟨st_bin b!"+" (by decide) (by decide) (by decide) (by decide) (by decide) (by decide) (fun _ _ _ => rfl), ?_⟩
  refine List.forall_mem_cons.2 ⟨st_bin b!"-" (by decide) (by decide) (by decide) (by decide) (by decide) (by decide) (fun _ _ _ => rfl), ?_⟩
  refine List.forall_mem_cons.2 ⟨st_up (by decide) (by decide), ?_⟩
  refine List.forall_mem_cons.2 ⟨st_bin b!"*" (by decide) (by decide) (by decide) (by decide) (by decide) (by decide) (fun _ _ _ => rfl), ?_⟩
  refine List.forall_mem_cons.2 ⟨st_bin b!"%" (by decide) (by decide) (by decide) (by decide) (by decide) (by decide) (fun _ _ _ => rfl), ?_⟩
  refine List.forall_mem_cons.2 ⟨st_bin b!"/" (by decide) (by decide) (by decide) (by decide) (by decide) (by decide) (fun _ _ _ => rfl), ?_⟩
  refine List.forall_mem_cons.2 ⟨st_bin b!"//" (by decide) (by decide) (by decide) (by decide) (by decide) (by decide) (fun _ _ _ => rfl), ?_⟩
  refine List.forall_mem_cons.2 ⟨st_up (by decide) (by decide), ?_⟩
  refine List.forall_mem_cons.2 ⟨st_un b!"not" (by decide) (by decide) (by decide) (fun _ _ => rfl), ?_⟩
  refine List.forall_mem_cons.2 ⟨st_un b!"-" (by decide) (by decide) (by decide) (fun _ _ => rfl), ?_⟩
  refine List.forall_mem_cons.2 ⟨st_un b!"+" (by decide) (by decide) (by decide) (fun _ _ => rfl), ?_⟩
  refine List.forall_mem_cons.2 ⟨st_un b!"~" (by decide) (by decide) (by decide) (fun _ _ => rfl), ?_⟩
  refine List.forall_mem_cons.2 ⟨st117, ?_⟩
  refine List.forall_mem_cons.2 ⟨st_up (by decide) (by decide), ?_⟩
  refine List.forall_mem_cons.2 ⟨st116, ?_⟩
  refine List.forall_mem_cons.2 ⟨st_up (by decide) (by decide), ?_⟩
  refine List.forall_mem_cons.2 ⟨st_bin b!"or" (by decide) (by decide) (by decide) (by decide) (by decide) (by decide) (fun _ _ _ => rfl), ?_⟩
  refine List.forall_mem_cons.2 ⟨st_up (by decide) (by decide), ?_⟩
  refine List.forall_mem_cons.2 ⟨st_bin b!"and" (by decide) (by decide) (by decide) (by decide) (by decide) (by decide) (fun _ _ _ => rfl), ?_⟩
  refine List.forall_mem_cons.2 ⟨st_up (by decide) (by decide), ?_⟩
  refine List.forall_mem_cons.2 ⟨st_bin b!"<" (by decide) (by decide) (by decide) (by decide) (by decide) (by decide) (fun _ _ _ => rfl), ?_⟩
  refine List.forall_mem_cons.2 ⟨st_bin b!">" (by decide) (by decide) (by decide) (by decide) (by decide) (by decide) (fun _ _ _ => rfl), ?_⟩
  refine List.forall_mem_cons.2 ⟨st_bin b!"==" (by decide) (by decide) (by decide) (by decide) (by decide) (by decide) (fun _ _ _ => rfl), ?_⟩
  refine List.forall_mem_cons.2 ⟨st_bin b!"<=" (by decide) (by decide) (by decide) (by decide) (by decide) (by decide) (fun _ _ _ => rfl), ?_⟩
  refine List.forall_mem_cons.2 ⟨st_bin b!"!=" (by decide) (by decide) (by decide) (by decide) (by decide) (by decide) (fun _ _ _ => rfl), ?_⟩
  refine List.forall_mem_cons.2 ⟨st_bin b!">=" (by decide) (by decide) (by decide) (by decide) (by decide) (by decide) (fun _ _ _ => rfl), ?_⟩
  refine List.forall_mem_cons.2 ⟨st_bin b!"in" (by decide) (by decide) (by decide) (by decide) (by decide) (by decide) (fun _ _ _ => rfl), ?_⟩
  refine List.forall_mem_cons.2 ⟨st_notIn (by decide) (by decide) (by decide), ?_⟩
  refine List.forall_mem_cons.2 ⟨st_up (by decide) (by decide), ?_⟩
  refine List.forall_mem_cons.2 ⟨st_bin b!"|" (by decide) (by decide) (by decide) (by decide) (by decide) (by decide) (fun _ _ _ => rfl), ?_⟩
  refine List.forall_mem_cons.2 ⟨st_up (by decide) (by decide), ?_⟩
  refine List.forall_mem_cons.2 ⟨st_bin b!"^" (by decide) (by decide) (by decide) (by decide) (by decide) (by decide) (fun _ _ _ => rfl), ?_⟩
  refine List.forall_mem_cons.2 ⟨st_up (by decide) (by decide), ?_⟩
  refine List.forall_mem_cons.2 ⟨st_bin b!"&" (by decide) (by decide) (by decide) (by decide) (by decide) (by decide) (fun _ _ _ => rfl), ?_⟩
  refine List.forall_mem_cons.2 ⟨st_up (by decide) (by decide), ?_⟩
  refine List.forall_mem_cons.2 ⟨st_bin b!"<<" (by decide) (by decide) (by decide) (by decide) (by decide) (by decide) (fun _ _ _ => rfl), ?_⟩
  refine List.forall_mem_cons.2 ⟨st_bin b!">>" (by decide) (by decide) (by decide) (by decide) (by decide) (by decide) (fun _ _ _ => rfl), ?_⟩
  refine List.forall_mem_cons.2 ⟨st_up (by decide) (by decide), ?_⟩
  refine List.forall_mem_cons.2 ⟨st_bin b!"+" (by decide) (by decide) (by decide) (by decide) (by decide) (by decide) (fun _ _ _ => rfl), ?_⟩
  refine List.forall_mem_cons.2 ⟨st_bin b!"-" (by decide) (by decide) (by decide) (by decide) (by decide) (by decide) (fun _ _ _ => rfl), ?_⟩
  refine List.forall_mem_cons.2 ⟨st_up (by decide) (by decide), ?_⟩
  refine List.forall_mem_cons.2 ⟨st_bin b!"*" (by decide) (by decide) (by decide) (by decide) (by decide) (by decide) (fun _ _ _ => rfl), ?_⟩
  refine List.forall_mem_cons.2 ⟨st_bin b!"%" (by decide) (by decide) (by decide) (by decide) (by decide) (by decide) (fun _ _ _ => rfl), ?_⟩
  refine List.forall_mem_cons.2 ⟨st_bin b!"/" (by decide) (by decide) (by decide) (by decide) (by decide) (by decide) (fun _ _ _ => rfl), ?_⟩
  refine List.forall_mem_cons.2 ⟨st_bin b!"//" (by decide) (by decide) (by decide) (by decide) (by decide) (by decide) (fun _ _ _ => rfl), ?_⟩
  refine List.forall_mem_cons.2 ⟨st_up (by decide) (by decide), ?_⟩
  refine List.forall_mem_cons.2 ⟨st_un b!"not" (by decide) (by decide) (by decide) (fun _ _ => rfl), ?_⟩
  refine List.forall_mem_cons.2 ⟨st_un b!"-" (by decide) (by decide) (by decide) (fun _ _ => rfl), ?_⟩
  refine List.forall_mem_cons.2 ⟨st_un b!"+" (by decide) (by decide) (by decide) (fun _ _ => rfl), ?_⟩
  refine List.forall_mem_cons.2 ⟨st_un b!"~" (by decide) (by decide) (by decide) (fun _ _ => rfl), ?_⟩
  refine List.forall_mem_cons.2 ⟨st89, ?_⟩
  refine List.forall_mem_cons.2 ⟨st90, ?_⟩
  refine List.forall_mem_cons.2 ⟨st85l, ?_⟩
  refine List.forall_mem_cons.2 ⟨st_any, ?_⟩
  refine List.forall_mem_cons.2 ⟨st_any, ?_⟩
  refine List.forall_mem_cons.2 ⟨st_primary, ?_⟩
  refine List.forall_mem_cons.2 ⟨st_primaryInt, ?_⟩
  refine List.forall_mem_cons.2 ⟨st_stmts, ?_⟩
  refine List.forall_mem_cons.2 ⟨st_stmts, ?_⟩
  refine List.forall_mem_cons.2 ⟨st_chain, ?_⟩
  refine List.forall_mem_cons.2 ⟨st_chain, ?_⟩
  exact forall_nil

end Verif.Round
