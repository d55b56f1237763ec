import Verif.Proof.HashValues

/-! The hash of the empty message, by kernel evaluation on residues. -/

namespace Bls.Sig

set_option maxRecDepth 100000

theorem hash_empty : (fromMessage [] ciphersuiteId : Option (G2 NatP)).map nats = some [
    847545849305970969358506177669386783486128839112889161146308797545958223842562721638649597628614282814693344612815,
    1915683629720570046931646696661995564846162212310503262400547781211439337331497805269174066459587352491792382466879,
    243649626486446231667053827493182420305320203027409827483510373091555645783315515908956435792240417725273100472777,
    3495990426161262319765912913349887754477117722606392836761304605202801999519296387183872409641744404430913653236228,
    2887707503428514724466299976248977529900911286012795460360145696605216206890219368676770178621014939250910209598820,
    3991307954904869600322783054167808508013296745191139713047609699424761699800688864848119116122217516497991912773602] := by
  decide +kernel

/-- `abc` and the empty message have different hashes. -/
theorem hash_abc_empty (K : Type) [Field K] [FpOps K] [LawfulFp K] : ∃ e e' : G2 K, fromMessage [97, 98, 99] ciphersuiteId = some e ∧
    fromMessage [] ciphersuiteId = some e' ∧ e.equal e' = false := by
  refine ⟨_, _, hash_transfer K hash_abc, hash_transfer K hash_empty, ?_⟩
  rw [Jac.map_equal]
  decide +kernel

end Bls.Sig
