import Verif.Data.Sd1Ldm
import Verif.Data.Sd1SupermergerBlocks
import Verif.Proofs.ConvertLost

/-!
# Certificates for the conversion from `sd1-supermerger_blocks` to `sd1-ldm`

Generated by tools/gen_certs.py, checked by the kernel.
-/
namespace Verif.Data.CertSd1Blocks
open Fast

/-- The chunks of the source -/
noncomputable def source : List (List Entry) := [Sd1SupermergerBlocks.blocks0]
/-- The chunks of the target -/
noncomputable def target : List (List Entry) := [Sd1Ldm.clip_l0.map scalar, Sd1Ldm.clip_l1.map scalar, Sd1Ldm.vae0.map scalar, Sd1Ldm.vae1.map scalar, Sd1Ldm.vae2.map scalar, Sd1Ldm.diffuser0.map scalar, Sd1Ldm.diffuser1.map scalar, Sd1Ldm.diffuser2.map scalar, Sd1Ldm.diffuser3.map scalar, Sd1Ldm.diffuser4.map scalar, Sd1Ldm.diffuser5.map scalar, Sd1Ldm.diffuser6.map scalar, Sd1Ldm.ema0.map scalar, Sd1Ldm.ema1.map scalar, Sd1Ldm.ema2.map scalar, Sd1Ldm.ema3.map scalar, Sd1Ldm.ema4.map scalar, Sd1Ldm.ema5.map scalar, Sd1Ldm.ema6.map scalar, Sd1Ldm.scheduler0.map scalar]

noncomputable def cert0 : List Cert := [.read 0 0, .read 0 0, .read 0 0, .read 0 0, .read 0 0, .read 0 0, .read 0 0, .read 0 0, .read 0 0, .read 0 0, .read 0 0, .read 0 0, .read 0 0, .read 0 0, .read 0 0, .read 0 0, .read 0 0, .read 0 0, .read 0 0, .read 0 0, .read 0 0, .read 0 0, .read 0 0, .read 0 0, .read 0 0, .read 0 0, .read 0 0, .read 0 0, .read 0 0, .read 0 0, .read 0 0, .read 0 0, .read 0 0, .read 0 0, .read 0 0, .read 0 0, .read 0 0, .read 0 0, .read 0 0, .read 0 0, .read 0 0, .read 0 0, .read 0 0, .read 0 0, .read 0 0, .read 0 0, .read 0 0, .read 0 0, .read 0 0, .read 0 0, .read 0 0, .read 0 0, .read 0 0, .read 0 0, .read 0 0, .read 0 0, .read 0 0, .read 0 0, .read 0 0, .read 0 0, .read 0 0, .read 0 0, .read 0 0, .read 0 0, .read 0 0, .read 0 0, .read 0 0, .read 0 0, .read 0 0, .read 0 0, .read 0 0, .read 0 0, .read 0 0, .read 0 0, .read 0 0, .read 0 0, .read 0 0, .read 0 0, .read 0 0, .read 0 0, .read 0 0, .read 0 0, .read 0 0, .read 0 0, .read 0 0, .read 0 0, .read 0 0, .read 0 0, .read 0 0, .read 0 0, .read 0 0, .read 0 0, .read 0 0, .read 0 0, .read 0 0, .read 0 0, .read 0 0, .read 0 0, .read 0 0, .read 0 0]
theorem check0 : checkAll source sd1Blocks sd1BlocksSpec never (Sd1Ldm.clip_l0.map scalar) cert0 = true := by kernel_rfl
theorem mask0 : mask cert0 = 1 := by kernel_rfl
theorem below0 : cert0.all (fun c => (positions c).all fun p => decide (p.2 < 128)) = true := by kernel_rfl

noncomputable def cert1 : List Cert := [.read 0 0, .read 0 0, .read 0 0, .read 0 0, .read 0 0, .read 0 0, .read 0 0, .read 0 0, .read 0 0, .read 0 0, .read 0 0, .read 0 0, .read 0 0, .read 0 0, .read 0 0, .read 0 0, .read 0 0, .read 0 0, .read 0 0, .read 0 0, .read 0 0, .read 0 0, .read 0 0, .read 0 0, .read 0 0, .read 0 0, .read 0 0, .read 0 0, .read 0 0, .read 0 0, .read 0 0, .read 0 0, .read 0 0, .read 0 0, .read 0 0, .read 0 0, .read 0 0, .read 0 0, .read 0 0, .read 0 0, .read 0 0, .read 0 0, .read 0 0, .read 0 0, .read 0 0, .read 0 0, .read 0 0, .read 0 0, .read 0 0, .read 0 0, .read 0 0, .read 0 0, .read 0 0, .read 0 0, .read 0 0, .read 0 0, .read 0 0, .read 0 0, .read 0 0, .read 0 0, .read 0 0, .read 0 0, .read 0 0, .read 0 0, .read 0 0, .read 0 0, .read 0 0, .read 0 0, .read 0 0, .read 0 0, .read 0 0, .read 0 0, .read 0 0, .read 0 0, .read 0 0, .read 0 0, .read 0 0, .read 0 0, .read 0 0, .read 0 0, .read 0 0, .read 0 0, .read 0 0, .read 0 0, .read 0 0, .read 0 0, .read 0 0, .read 0 0, .read 0 0, .read 0 0, .read 0 0, .read 0 0, .read 0 0, .read 0 0, .read 0 0, .read 0 0, .read 0 0]
theorem check1 : checkAll source sd1Blocks sd1BlocksSpec never (Sd1Ldm.clip_l1.map scalar) cert1 = true := by kernel_rfl
theorem mask1 : mask cert1 = 1 := by kernel_rfl
theorem below1 : cert1.all (fun c => (positions c).all fun p => decide (p.2 < 128)) = true := by kernel_rfl

noncomputable def cert2 : List Cert := [.read 0 0, .read 0 0, .read 0 0, .read 0 0, .read 0 0, .read 0 0, .read 0 0, .read 0 0, .read 0 0, .read 0 0, .read 0 0, .read 0 0, .read 0 0, .read 0 0, .read 0 0, .read 0 0, .read 0 0, .read 0 0, .read 0 0, .read 0 0, .read 0 0, .read 0 0, .read 0 0, .read 0 0, .read 0 0, .read 0 0, .read 0 0, .read 0 0, .read 0 0, .read 0 0, .read 0 0, .read 0 0, .read 0 0, .read 0 0, .read 0 0, .read 0 0, .read 0 0, .read 0 0, .read 0 0, .read 0 0, .read 0 0, .read 0 0, .read 0 0, .read 0 0, .read 0 0, .read 0 0, .read 0 0, .read 0 0, .read 0 0, .read 0 0, .read 0 0, .read 0 0, .read 0 0, .read 0 0, .read 0 0, .read 0 0, .read 0 0, .read 0 0, .read 0 0, .read 0 0, .read 0 0, .read 0 0, .read 0 0, .read 0 0, .read 0 0, .read 0 0, .read 0 0, .read 0 0, .read 0 0, .read 0 0, .read 0 0, .read 0 0, .read 0 0, .read 0 0, .read 0 0, .read 0 0, .read 0 0, .read 0 0, .read 0 0, .read 0 0, .read 0 0, .read 0 0, .read 0 0, .read 0 0, .read 0 0, .read 0 0, .read 0 0, .read 0 0, .read 0 0, .read 0 0, .read 0 0, .read 0 0, .read 0 0, .read 0 0, .read 0 0, .read 0 0, .read 0 0, .read 0 0, .read 0 0, .read 0 0]
theorem check2 : checkAll source sd1Blocks sd1BlocksSpec never (Sd1Ldm.vae0.map scalar) cert2 = true := by kernel_rfl
theorem mask2 : mask cert2 = 1 := by kernel_rfl
theorem below2 : cert2.all (fun c => (positions c).all fun p => decide (p.2 < 128)) = true := by kernel_rfl

noncomputable def cert3 : List Cert := [.read 0 0, .read 0 0, .read 0 0, .read 0 0, .read 0 0, .read 0 0, .read 0 0, .read 0 0, .read 0 0, .read 0 0, .read 0 0, .read 0 0, .read 0 0, .read 0 0, .read 0 0, .read 0 0, .read 0 0, .read 0 0, .read 0 0, .read 0 0, .read 0 0, .read 0 0, .read 0 0, .read 0 0, .read 0 0, .read 0 0, .read 0 0, .read 0 0, .read 0 0, .read 0 0, .read 0 0, .read 0 0, .read 0 0, .read 0 0, .read 0 0, .read 0 0, .read 0 0, .read 0 0, .read 0 0, .read 0 0, .read 0 0, .read 0 0, .read 0 0, .read 0 0, .read 0 0, .read 0 0, .read 0 0, .read 0 0, .read 0 0, .read 0 0, .read 0 0, .read 0 0, .read 0 0, .read 0 0, .read 0 0, .read 0 0, .read 0 0, .read 0 0, .read 0 0, .read 0 0, .read 0 0, .read 0 0, .read 0 0, .read 0 0, .read 0 0, .read 0 0, .read 0 0, .read 0 0, .read 0 0, .read 0 0, .read 0 0, .read 0 0, .read 0 0, .read 0 0, .read 0 0, .read 0 0, .read 0 0, .read 0 0, .read 0 0, .read 0 0, .read 0 0, .read 0 0, .read 0 0, .read 0 0, .read 0 0, .read 0 0, .read 0 0, .read 0 0, .read 0 0, .read 0 0, .read 0 0, .read 0 0, .read 0 0, .read 0 0, .read 0 0, .read 0 0, .read 0 0, .read 0 0, .read 0 0, .read 0 0]
theorem check3 : checkAll source sd1Blocks sd1BlocksSpec never (Sd1Ldm.vae1.map scalar) cert3 = true := by kernel_rfl
theorem mask3 : mask cert3 = 1 := by kernel_rfl
theorem below3 : cert3.all (fun c => (positions c).all fun p => decide (p.2 < 128)) = true := by kernel_rfl

noncomputable def cert4 : List Cert := [.read 0 0, .read 0 0, .read 0 0, .read 0 0, .read 0 0, .read 0 0, .read 0 0, .read 0 0, .read 0 0, .read 0 0, .read 0 0, .read 0 0, .read 0 0, .read 0 0, .read 0 0, .read 0 0, .read 0 0, .read 0 0, .read 0 0, .read 0 0, .read 0 0, .read 0 0, .read 0 0, .read 0 0, .read 0 0, .read 0 0, .read 0 0, .read 0 0, .read 0 0, .read 0 0, .read 0 0, .read 0 0, .read 0 0, .read 0 0, .read 0 0, .read 0 0, .read 0 0, .read 0 0, .read 0 0, .read 0 0, .read 0 0, .read 0 0, .read 0 0, .read 0 0, .read 0 0, .read 0 0, .read 0 0, .read 0 0]
theorem check4 : checkAll source sd1Blocks sd1BlocksSpec never (Sd1Ldm.vae2.map scalar) cert4 = true := by kernel_rfl
theorem mask4 : mask cert4 = 1 := by kernel_rfl
theorem below4 : cert4.all (fun c => (positions c).all fun p => decide (p.2 < 128)) = true := by kernel_rfl

noncomputable def cert5 : List Cert := [.read 0 1, .read 0 1, .read 0 2, .read 0 2, .read 0 2, .read 0 2, .read 0 2, .read 0 2, .read 0 2, .read 0 2, .read 0 2, .read 0 2, .read 0 2, .read 0 2, .read 0 2, .read 0 2, .read 0 2, .read 0 2, .read 0 2, .read 0 2, .read 0 2, .read 0 2, .read 0 2, .read 0 2, .read 0 2, .read 0 2, .read 0 2, .read 0 2, .read 0 2, .read 0 2, .read 0 2, .read 0 2, .read 0 2, .read 0 2, .read 0 2, .read 0 2, .read 0 2, .read 0 2, .read 0 11, .read 0 11, .read 0 11, .read 0 11, .read 0 11, .read 0 11, .read 0 11, .read 0 11, .read 0 11, .read 0 11, .read 0 12, .read 0 12, .read 0 12, .read 0 12, .read 0 12, .read 0 12, .read 0 12, .read 0 12, .read 0 12, .read 0 12, .read 0 3, .read 0 3, .read 0 3, .read 0 3, .read 0 3, .read 0 3, .read 0 3, .read 0 3, .read 0 3, .read 0 3, .read 0 3, .read 0 3, .read 0 3, .read 0 3, .read 0 3, .read 0 3, .read 0 3, .read 0 3, .read 0 3, .read 0 3, .read 0 3, .read 0 3, .read 0 3, .read 0 3, .read 0 3, .read 0 3, .read 0 3, .read 0 3, .read 0 3, .read 0 3, .read 0 3, .read 0 3, .read 0 3, .read 0 3, .read 0 3, .read 0 3, .read 0 4, .read 0 4, .read 0 5, .read 0 5, .read 0 5, .read 0 5]
theorem check5 : checkAll source sd1Blocks sd1BlocksSpec never (Sd1Ldm.diffuser0.map scalar) cert5 = true := by kernel_rfl
theorem mask5 : mask cert5 = 6206 := by kernel_rfl
theorem below5 : cert5.all (fun c => (positions c).all fun p => decide (p.2 < 128)) = true := by kernel_rfl

noncomputable def cert6 : List Cert := [.read 0 5, .read 0 5, .read 0 5, .read 0 5, .read 0 5, .read 0 5, .read 0 5, .read 0 5, .read 0 5, .read 0 5, .read 0 5, .read 0 5, .read 0 5, .read 0 5, .read 0 5, .read 0 5, .read 0 5, .read 0 5, .read 0 5, .read 0 5, .read 0 5, .read 0 5, .read 0 5, .read 0 5, .read 0 5, .read 0 5, .read 0 5, .read 0 5, .read 0 5, .read 0 5, .read 0 5, .read 0 5, .read 0 5, .read 0 5, .read 0 6, .read 0 6, .read 0 6, .read 0 6, .read 0 6, .read 0 6, .read 0 6, .read 0 6, .read 0 6, .read 0 6, .read 0 6, .read 0 6, .read 0 6, .read 0 6, .read 0 6, .read 0 6, .read 0 6, .read 0 6, .read 0 6, .read 0 6, .read 0 6, .read 0 6, .read 0 6, .read 0 6, .read 0 6, .read 0 6, .read 0 6, .read 0 6, .read 0 6, .read 0 6, .read 0 6, .read 0 6, .read 0 6, .read 0 6, .read 0 6, .read 0 6, .read 0 7, .read 0 7, .read 0 8, .read 0 8, .read 0 8, .read 0 8, .read 0 8, .read 0 8, .read 0 8, .read 0 8, .read 0 8, .read 0 8, .read 0 8, .read 0 8, .read 0 8, .read 0 8, .read 0 8, .read 0 8, .read 0 8, .read 0 8, .read 0 8, .read 0 8, .read 0 8, .read 0 8, .read 0 8, .read 0 8, .read 0 8, .read 0 8, .read 0 8, .read 0 8]
theorem check6 : checkAll source sd1Blocks sd1BlocksSpec never (Sd1Ldm.diffuser1.map scalar) cert6 = true := by kernel_rfl
theorem mask6 : mask cert6 = 480 := by kernel_rfl
theorem below6 : cert6.all (fun c => (positions c).all fun p => decide (p.2 < 128)) = true := by kernel_rfl

noncomputable def cert7 : List Cert := [.read 0 8, .read 0 8, .read 0 8, .read 0 8, .read 0 8, .read 0 8, .read 0 8, .read 0 8, .read 0 8, .read 0 8, .read 0 9, .read 0 9, .read 0 9, .read 0 9, .read 0 9, .read 0 9, .read 0 9, .read 0 9, .read 0 9, .read 0 9, .read 0 9, .read 0 9, .read 0 9, .read 0 9, .read 0 9, .read 0 9, .read 0 9, .read 0 9, .read 0 9, .read 0 9, .read 0 9, .read 0 9, .read 0 9, .read 0 9, .read 0 9, .read 0 9, .read 0 9, .read 0 9, .read 0 9, .read 0 9, .read 0 9, .read 0 9, .read 0 9, .read 0 9, .read 0 9, .read 0 9, .read 0 10, .read 0 10, .read 0 13, .read 0 13, .read 0 13, .read 0 13, .read 0 13, .read 0 13, .read 0 13, .read 0 13, .read 0 13, .read 0 13, .read 0 13, .read 0 13, .read 0 13, .read 0 13, .read 0 13, .read 0 13, .read 0 13, .read 0 13, .read 0 13, .read 0 13, .read 0 13, .read 0 13, .read 0 13, .read 0 13, .read 0 13, .read 0 13, .read 0 13, .read 0 13, .read 0 13, .read 0 13, .read 0 13, .read 0 13, .read 0 13, .read 0 13, .read 0 13, .read 0 13, .read 0 13, .read 0 13, .read 0 13, .read 0 13, .read 0 13, .read 0 13, .read 0 13, .read 0 13, .read 0 13, .read 0 13, .read 0 25, .read 0 25, .read 0 25, .read 0 25, .read 0 14, .read 0 14]
theorem check7 : checkAll source sd1Blocks sd1BlocksSpec never (Sd1Ldm.diffuser2.map scalar) cert7 = true := by kernel_rfl
theorem mask7 : mask cert7 = 33580800 := by kernel_rfl
theorem below7 : cert7.all (fun c => (positions c).all fun p => decide (p.2 < 128)) = true := by kernel_rfl

noncomputable def cert8 : List Cert := [.read 0 14, .read 0 14, .read 0 14, .read 0 14, .read 0 14, .read 0 14, .read 0 14, .read 0 14, .read 0 14, .read 0 14, .read 0 15, .read 0 15, .read 0 15, .read 0 15, .read 0 15, .read 0 15, .read 0 15, .read 0 15, .read 0 15, .read 0 15, .read 0 15, .read 0 15, .read 0 24, .read 0 24, .read 0 24, .read 0 24, .read 0 24, .read 0 24, .read 0 24, .read 0 24, .read 0 24, .read 0 24, .read 0 24, .read 0 24, .read 0 24, .read 0 24, .read 0 24, .read 0 24, .read 0 24, .read 0 24, .read 0 24, .read 0 24, .read 0 24, .read 0 24, .read 0 24, .read 0 24, .read 0 24, .read 0 24, .read 0 24, .read 0 24, .read 0 24, .read 0 24, .read 0 24, .read 0 24, .read 0 24, .read 0 24, .read 0 24, .read 0 24, .read 0 24, .read 0 24, .read 0 25, .read 0 25, .read 0 25, .read 0 25, .read 0 25, .read 0 25, .read 0 25, .read 0 25, .read 0 25, .read 0 25, .read 0 25, .read 0 25, .read 0 25, .read 0 25, .read 0 25, .read 0 25, .read 0 25, .read 0 25, .read 0 25, .read 0 25, .read 0 25, .read 0 25, .read 0 25, .read 0 25, .read 0 25, .read 0 25, .read 0 25, .read 0 25, .read 0 25, .read 0 25, .read 0 25, .read 0 25, .read 0 25, .read 0 25, .read 0 25, .read 0 25, .read 0 25, .read 0 25, .read 0 16, .read 0 16]
theorem check8 : checkAll source sd1Blocks sd1BlocksSpec never (Sd1Ldm.diffuser3.map scalar) cert8 = true := by kernel_rfl
theorem mask8 : mask cert8 = 50446336 := by kernel_rfl
theorem below8 : cert8.all (fun c => (positions c).all fun p => decide (p.2 < 128)) = true := by kernel_rfl

noncomputable def cert9 : List Cert := [.read 0 16, .read 0 16, .read 0 16, .read 0 16, .read 0 16, .read 0 16, .read 0 16, .read 0 16, .read 0 16, .read 0 16, .read 0 16, .read 0 16, .read 0 17, .read 0 17, .read 0 17, .read 0 17, .read 0 17, .read 0 17, .read 0 17, .read 0 17, .read 0 17, .read 0 17, .read 0 17, .read 0 17, .read 0 17, .read 0 17, .read 0 17, .read 0 17, .read 0 17, .read 0 17, .read 0 17, .read 0 17, .read 0 17, .read 0 17, .read 0 17, .read 0 17, .read 0 17, .read 0 17, .read 0 17, .read 0 17, .read 0 17, .read 0 17, .read 0 17, .read 0 17, .read 0 17, .read 0 17, .read 0 17, .read 0 17, .read 0 17, .read 0 17, .read 0 18, .read 0 18, .read 0 18, .read 0 18, .read 0 18, .read 0 18, .read 0 18, .read 0 18, .read 0 18, .read 0 18, .read 0 18, .read 0 18, .read 0 18, .read 0 18, .read 0 18, .read 0 18, .read 0 18, .read 0 18, .read 0 18, .read 0 18, .read 0 18, .read 0 18, .read 0 18, .read 0 18, .read 0 18, .read 0 18, .read 0 18, .read 0 18, .read 0 18, .read 0 18, .read 0 18, .read 0 18, .read 0 18, .read 0 18, .read 0 18, .read 0 18, .read 0 18, .read 0 18, .read 0 19, .read 0 19, .read 0 19, .read 0 19, .read 0 19, .read 0 19, .read 0 19, .read 0 19, .read 0 19, .read 0 19, .read 0 19, .read 0 19]
theorem check9 : checkAll source sd1Blocks sd1BlocksSpec never (Sd1Ldm.diffuser4.map scalar) cert9 = true := by kernel_rfl
theorem mask9 : mask cert9 = 983040 := by kernel_rfl
theorem below9 : cert9.all (fun c => (positions c).all fun p => decide (p.2 < 128)) = true := by kernel_rfl

noncomputable def cert10 : List Cert := [.read 0 19, .read 0 19, .read 0 19, .read 0 19, .read 0 19, .read 0 19, .read 0 19, .read 0 19, .read 0 19, .read 0 19, .read 0 19, .read 0 19, .read 0 19, .read 0 19, .read 0 19, .read 0 19, .read 0 19, .read 0 19, .read 0 19, .read 0 19, .read 0 19, .read 0 19, .read 0 19, .read 0 19, .read 0 19, .read 0 19, .read 0 19, .read 0 19, .read 0 20, .read 0 20, .read 0 20, .read 0 20, .read 0 20, .read 0 20, .read 0 20, .read 0 20, .read 0 20, .read 0 20, .read 0 20, .read 0 20, .read 0 20, .read 0 20, .read 0 20, .read 0 20, .read 0 20, .read 0 20, .read 0 20, .read 0 20, .read 0 20, .read 0 20, .read 0 20, .read 0 20, .read 0 20, .read 0 20, .read 0 20, .read 0 20, .read 0 20, .read 0 20, .read 0 20, .read 0 20, .read 0 20, .read 0 20, .read 0 20, .read 0 20, .read 0 20, .read 0 20, .read 0 21, .read 0 21, .read 0 21, .read 0 21, .read 0 21, .read 0 21, .read 0 21, .read 0 21, .read 0 21, .read 0 21, .read 0 21, .read 0 21, .read 0 21, .read 0 21, .read 0 21, .read 0 21, .read 0 21, .read 0 21, .read 0 21, .read 0 21, .read 0 21, .read 0 21, .read 0 21, .read 0 21, .read 0 21, .read 0 21, .read 0 21, .read 0 21, .read 0 21, .read 0 21, .read 0 21, .read 0 21, .read 0 21, .read 0 21]
theorem check10 : checkAll source sd1Blocks sd1BlocksSpec never (Sd1Ldm.diffuser5.map scalar) cert10 = true := by kernel_rfl
theorem mask10 : mask cert10 = 3670016 := by kernel_rfl
theorem below10 : cert10.all (fun c => (positions c).all fun p => decide (p.2 < 128)) = true := by kernel_rfl

noncomputable def cert11 : List Cert := [.read 0 21, .read 0 21, .read 0 21, .read 0 21, .read 0 22, .read 0 22, .read 0 22, .read 0 22, .read 0 22, .read 0 22, .read 0 22, .read 0 22, .read 0 22, .read 0 22, .read 0 22, .read 0 22, .read 0 22, .read 0 22, .read 0 22, .read 0 22, .read 0 22, .read 0 22, .read 0 22, .read 0 22, .read 0 22, .read 0 22, .read 0 22, .read 0 22, .read 0 22, .read 0 22, .read 0 22, .read 0 22, .read 0 22, .read 0 22, .read 0 22, .read 0 22, .read 0 22, .read 0 22, .read 0 22, .read 0 22, .read 0 22, .read 0 22, .read 0 22, .read 0 22, .read 0 23, .read 0 23, .read 0 23, .read 0 23, .read 0 23, .read 0 23, .read 0 23, .read 0 23, .read 0 23, .read 0 23, .read 0 23, .read 0 23, .read 0 23, .read 0 23, .read 0 23, .read 0 23, .read 0 23, .read 0 23, .read 0 23, .read 0 23, .read 0 23, .read 0 23, .read 0 23, .read 0 23, .read 0 23, .read 0 23, .read 0 23, .read 0 23, .read 0 23, .read 0 23, .read 0 23, .read 0 23, .read 0 23, .read 0 23, .read 0 23, .read 0 23, .read 0 23, .read 0 23, .read 0 0, .read 0 0, .read 0 0, .read 0 0]
theorem check11 : checkAll source sd1Blocks sd1BlocksSpec never (Sd1Ldm.diffuser6.map scalar) cert11 = true := by kernel_rfl
theorem mask11 : mask cert11 = 14680065 := by kernel_rfl
theorem below11 : cert11.all (fun c => (positions c).all fun p => decide (p.2 < 128)) = true := by kernel_rfl

noncomputable def cert12 : List Cert := [.read 0 0, .read 0 0, .read 0 0, .read 0 0, .read 0 0, .read 0 0, .read 0 0, .read 0 0, .read 0 0, .read 0 0, .read 0 0, .read 0 0, .read 0 0, .read 0 0, .read 0 0, .read 0 0, .read 0 0, .read 0 0, .read 0 0, .read 0 0, .read 0 0, .read 0 0, .read 0 0, .read 0 0, .read 0 0, .read 0 0, .read 0 0, .read 0 0, .read 0 0, .read 0 0, .read 0 0, .read 0 0, .read 0 0, .read 0 0, .read 0 0, .read 0 0, .read 0 0, .read 0 0, .read 0 0, .read 0 0, .read 0 0, .read 0 0, .read 0 0, .read 0 0, .read 0 0, .read 0 0, .read 0 0, .read 0 0, .read 0 0, .read 0 0, .read 0 0, .read 0 0, .read 0 0, .read 0 0, .read 0 0, .read 0 0, .read 0 0, .read 0 0, .read 0 0, .read 0 0, .read 0 0, .read 0 0, .read 0 0, .read 0 0, .read 0 0, .read 0 0, .read 0 0, .read 0 0, .read 0 0, .read 0 0, .read 0 0, .read 0 0, .read 0 0, .read 0 0, .read 0 0, .read 0 0, .read 0 0, .read 0 0, .read 0 0, .read 0 0, .read 0 0, .read 0 0, .read 0 0, .read 0 0, .read 0 0, .read 0 0, .read 0 0, .read 0 0, .read 0 0, .read 0 0, .read 0 0, .read 0 0, .read 0 0, .read 0 0, .read 0 0, .read 0 0, .read 0 0, .read 0 0, .read 0 0, .read 0 0]
theorem check12 : checkAll source sd1Blocks sd1BlocksSpec never (Sd1Ldm.ema0.map scalar) cert12 = true := by kernel_rfl
theorem mask12 : mask cert12 = 1 := by kernel_rfl
theorem below12 : cert12.all (fun c => (positions c).all fun p => decide (p.2 < 128)) = true := by kernel_rfl

noncomputable def cert13 : List Cert := [.read 0 0, .read 0 0, .read 0 0, .read 0 0, .read 0 0, .read 0 0, .read 0 0, .read 0 0, .read 0 0, .read 0 0, .read 0 0, .read 0 0, .read 0 0, .read 0 0, .read 0 0, .read 0 0, .read 0 0, .read 0 0, .read 0 0, .read 0 0, .read 0 0, .read 0 0, .read 0 0, .read 0 0, .read 0 0, .read 0 0, .read 0 0, .read 0 0, .read 0 0, .read 0 0, .read 0 0, .read 0 0, .read 0 0, .read 0 0, .read 0 0, .read 0 0, .read 0 0, .read 0 0, .read 0 0, .read 0 0, .read 0 0, .read 0 0, .read 0 0, .read 0 0, .read 0 0, .read 0 0, .read 0 0, .read 0 0, .read 0 0, .read 0 0, .read 0 0, .read 0 0, .read 0 0, .read 0 0, .read 0 0, .read 0 0, .read 0 0, .read 0 0, .read 0 0, .read 0 0, .read 0 0, .read 0 0, .read 0 0, .read 0 0, .read 0 0, .read 0 0, .read 0 0, .read 0 0, .read 0 0, .read 0 0, .read 0 0, .read 0 0, .read 0 0, .read 0 0, .read 0 0, .read 0 0, .read 0 0, .read 0 0, .read 0 0, .read 0 0, .read 0 0, .read 0 0, .read 0 0, .read 0 0, .read 0 0, .read 0 0, .read 0 0, .read 0 0, .read 0 0, .read 0 0, .read 0 0, .read 0 0, .read 0 0, .read 0 0, .read 0 0, .read 0 0, .read 0 0, .read 0 0, .read 0 0, .read 0 0]
theorem check13 : checkAll source sd1Blocks sd1BlocksSpec never (Sd1Ldm.ema1.map scalar) cert13 = true := by kernel_rfl
theorem mask13 : mask cert13 = 1 := by kernel_rfl
theorem below13 : cert13.all (fun c => (positions c).all fun p => decide (p.2 < 128)) = true := by kernel_rfl

noncomputable def cert14 : List Cert := [.read 0 0, .read 0 0, .read 0 0, .read 0 0, .read 0 0, .read 0 0, .read 0 0, .read 0 0, .read 0 0, .read 0 0, .read 0 0, .read 0 0, .read 0 0, .read 0 0, .read 0 0, .read 0 0, .read 0 0, .read 0 0, .read 0 0, .read 0 0, .read 0 0, .read 0 0, .read 0 0, .read 0 0, .read 0 0, .read 0 0, .read 0 0, .read 0 0, .read 0 0, .read 0 0, .read 0 0, .read 0 0, .read 0 0, .read 0 0, .read 0 0, .read 0 0, .read 0 0, .read 0 0, .read 0 0, .read 0 0, .read 0 0, .read 0 0, .read 0 0, .read 0 0, .read 0 0, .read 0 0, .read 0 0, .read 0 0, .read 0 0, .read 0 0, .read 0 0, .read 0 0, .read 0 0, .read 0 0, .read 0 0, .read 0 0, .read 0 0, .read 0 0, .read 0 0, .read 0 0, .read 0 0, .read 0 0, .read 0 0, .read 0 0, .read 0 0, .read 0 0, .read 0 0, .read 0 0, .read 0 0, .read 0 0, .read 0 0, .read 0 0, .read 0 0, .read 0 0, .read 0 0, .read 0 0, .read 0 0, .read 0 0, .read 0 0, .read 0 0, .read 0 0, .read 0 0, .read 0 0, .read 0 0, .read 0 0, .read 0 0, .read 0 0, .read 0 0, .read 0 0, .read 0 0, .read 0 0, .read 0 0, .read 0 0, .read 0 0, .read 0 0, .read 0 0, .read 0 0, .read 0 0, .read 0 0, .read 0 0]
theorem check14 : checkAll source sd1Blocks sd1BlocksSpec never (Sd1Ldm.ema2.map scalar) cert14 = true := by kernel_rfl
theorem mask14 : mask cert14 = 1 := by kernel_rfl
theorem below14 : cert14.all (fun c => (positions c).all fun p => decide (p.2 < 128)) = true := by kernel_rfl

noncomputable def cert15 : List Cert := [.read 0 0, .read 0 0, .read 0 0, .read 0 0, .read 0 0, .read 0 0, .read 0 0, .read 0 0, .read 0 0, .read 0 0, .read 0 0, .read 0 0, .read 0 0, .read 0 0, .read 0 0, .read 0 0, .read 0 0, .read 0 0, .read 0 0, .read 0 0, .read 0 0, .read 0 0, .read 0 0, .read 0 0, .read 0 0, .read 0 0, .read 0 0, .read 0 0, .read 0 0, .read 0 0, .read 0 0, .read 0 0, .read 0 0, .read 0 0, .read 0 0, .read 0 0, .read 0 0, .read 0 0, .read 0 0, .read 0 0, .read 0 0, .read 0 0, .read 0 0, .read 0 0, .read 0 0, .read 0 0, .read 0 0, .read 0 0, .read 0 0, .read 0 0, .read 0 0, .read 0 0, .read 0 0, .read 0 0, .read 0 0, .read 0 0, .read 0 0, .read 0 0, .read 0 0, .read 0 0, .read 0 0, .read 0 0, .read 0 0, .read 0 0, .read 0 0, .read 0 0, .read 0 0, .read 0 0, .read 0 0, .read 0 0, .read 0 0, .read 0 0, .read 0 0, .read 0 0, .read 0 0, .read 0 0, .read 0 0, .read 0 0, .read 0 0, .read 0 0, .read 0 0, .read 0 0, .read 0 0, .read 0 0, .read 0 0, .read 0 0, .read 0 0, .read 0 0, .read 0 0, .read 0 0, .read 0 0, .read 0 0, .read 0 0, .read 0 0, .read 0 0, .read 0 0, .read 0 0, .read 0 0, .read 0 0, .read 0 0]
theorem check15 : checkAll source sd1Blocks sd1BlocksSpec never (Sd1Ldm.ema3.map scalar) cert15 = true := by kernel_rfl
theorem mask15 : mask cert15 = 1 := by kernel_rfl
theorem below15 : cert15.all (fun c => (positions c).all fun p => decide (p.2 < 128)) = true := by kernel_rfl

noncomputable def cert16 : List Cert := [.read 0 0, .read 0 0, .read 0 0, .read 0 0, .read 0 0, .read 0 0, .read 0 0, .read 0 0, .read 0 0, .read 0 0, .read 0 0, .read 0 0, .read 0 0, .read 0 0, .read 0 0, .read 0 0, .read 0 0, .read 0 0, .read 0 0, .read 0 0, .read 0 0, .read 0 0, .read 0 0, .read 0 0, .read 0 0, .read 0 0, .read 0 0, .read 0 0, .read 0 0, .read 0 0, .read 0 0, .read 0 0, .read 0 0, .read 0 0, .read 0 0, .read 0 0, .read 0 0, .read 0 0, .read 0 0, .read 0 0, .read 0 0, .read 0 0, .read 0 0, .read 0 0, .read 0 0, .read 0 0, .read 0 0, .read 0 0, .read 0 0, .read 0 0, .read 0 0, .read 0 0, .read 0 0, .read 0 0, .read 0 0, .read 0 0, .read 0 0, .read 0 0, .read 0 0, .read 0 0, .read 0 0, .read 0 0, .read 0 0, .read 0 0, .read 0 0, .read 0 0, .read 0 0, .read 0 0, .read 0 0, .read 0 0, .read 0 0, .read 0 0, .read 0 0, .read 0 0, .read 0 0, .read 0 0, .read 0 0, .read 0 0, .read 0 0, .read 0 0, .read 0 0, .read 0 0, .read 0 0, .read 0 0, .read 0 0, .read 0 0, .read 0 0, .read 0 0, .read 0 0, .read 0 0, .read 0 0, .read 0 0, .read 0 0, .read 0 0, .read 0 0, .read 0 0, .read 0 0, .read 0 0, .read 0 0, .read 0 0]
theorem check16 : checkAll source sd1Blocks sd1BlocksSpec never (Sd1Ldm.ema4.map scalar) cert16 = true := by kernel_rfl
theorem mask16 : mask cert16 = 1 := by kernel_rfl
theorem below16 : cert16.all (fun c => (positions c).all fun p => decide (p.2 < 128)) = true := by kernel_rfl

noncomputable def cert17 : List Cert := [.read 0 0, .read 0 0, .read 0 0, .read 0 0, .read 0 0, .read 0 0, .read 0 0, .read 0 0, .read 0 0, .read 0 0, .read 0 0, .read 0 0, .read 0 0, .read 0 0, .read 0 0, .read 0 0, .read 0 0, .read 0 0, .read 0 0, .read 0 0, .read 0 0, .read 0 0, .read 0 0, .read 0 0, .read 0 0, .read 0 0, .read 0 0, .read 0 0, .read 0 0, .read 0 0, .read 0 0, .read 0 0, .read 0 0, .read 0 0, .read 0 0, .read 0 0, .read 0 0, .read 0 0, .read 0 0, .read 0 0, .read 0 0, .read 0 0, .read 0 0, .read 0 0, .read 0 0, .read 0 0, .read 0 0, .read 0 0, .read 0 0, .read 0 0, .read 0 0, .read 0 0, .read 0 0, .read 0 0, .read 0 0, .read 0 0, .read 0 0, .read 0 0, .read 0 0, .read 0 0, .read 0 0, .read 0 0, .read 0 0, .read 0 0, .read 0 0, .read 0 0, .read 0 0, .read 0 0, .read 0 0, .read 0 0, .read 0 0, .read 0 0, .read 0 0, .read 0 0, .read 0 0, .read 0 0, .read 0 0, .read 0 0, .read 0 0, .read 0 0, .read 0 0, .read 0 0, .read 0 0, .read 0 0, .read 0 0, .read 0 0, .read 0 0, .read 0 0, .read 0 0, .read 0 0, .read 0 0, .read 0 0, .read 0 0, .read 0 0, .read 0 0, .read 0 0, .read 0 0, .read 0 0, .read 0 0, .read 0 0]
theorem check17 : checkAll source sd1Blocks sd1BlocksSpec never (Sd1Ldm.ema5.map scalar) cert17 = true := by kernel_rfl
theorem mask17 : mask cert17 = 1 := by kernel_rfl
theorem below17 : cert17.all (fun c => (positions c).all fun p => decide (p.2 < 128)) = true := by kernel_rfl

noncomputable def cert18 : List Cert := [.read 0 0, .read 0 0, .read 0 0, .read 0 0, .read 0 0, .read 0 0, .read 0 0, .read 0 0, .read 0 0, .read 0 0, .read 0 0, .read 0 0, .read 0 0, .read 0 0, .read 0 0, .read 0 0, .read 0 0, .read 0 0, .read 0 0, .read 0 0, .read 0 0, .read 0 0, .read 0 0, .read 0 0, .read 0 0, .read 0 0, .read 0 0, .read 0 0, .read 0 0, .read 0 0, .read 0 0, .read 0 0, .read 0 0, .read 0 0, .read 0 0, .read 0 0, .read 0 0, .read 0 0, .read 0 0, .read 0 0, .read 0 0, .read 0 0, .read 0 0, .read 0 0, .read 0 0, .read 0 0, .read 0 0, .read 0 0, .read 0 0, .read 0 0, .read 0 0, .read 0 0, .read 0 0, .read 0 0, .read 0 0, .read 0 0, .read 0 0, .read 0 0, .read 0 0, .read 0 0, .read 0 0, .read 0 0, .read 0 0, .read 0 0, .read 0 0, .read 0 0, .read 0 0, .read 0 0, .read 0 0, .read 0 0, .read 0 0, .read 0 0, .read 0 0, .read 0 0, .read 0 0, .read 0 0, .read 0 0, .read 0 0, .read 0 0, .read 0 0, .read 0 0, .read 0 0, .read 0 0, .read 0 0, .read 0 0, .read 0 0, .read 0 0, .read 0 0]
theorem check18 : checkAll source sd1Blocks sd1BlocksSpec never (Sd1Ldm.ema6.map scalar) cert18 = true := by kernel_rfl
theorem mask18 : mask cert18 = 1 := by kernel_rfl
theorem below18 : cert18.all (fun c => (positions c).all fun p => decide (p.2 < 128)) = true := by kernel_rfl

noncomputable def cert19 : List Cert := [.read 0 0, .read 0 0, .read 0 0, .read 0 0, .read 0 0, .read 0 0, .read 0 0, .read 0 0, .read 0 0, .read 0 0, .read 0 0, .read 0 0]
theorem check19 : checkAll source sd1Blocks sd1BlocksSpec never (Sd1Ldm.scheduler0.map scalar) cert19 = true := by kernel_rfl
theorem mask19 : mask cert19 = 1 := by kernel_rfl
theorem below19 : cert19.all (fun c => (positions c).all fun p => decide (p.2 < 128)) = true := by kernel_rfl

/-- All certificates -/
noncomputable def certs : List (List Cert) := [cert0, cert1, cert2, cert3, cert4, cert5, cert6, cert7, cert8, cert9, cert10, cert11, cert12, cert13, cert14, cert15, cert16, cert17, cert18, cert19]

theorem allGood : AllGood source sd1Blocks sd1BlocksSpec never target certs :=
  .cons check0 <| .cons check1 <| .cons check2 <| .cons check3 <| .cons check4 <| .cons check5 <| .cons check6 <| .cons check7 <| .cons check8 <| .cons check9 <| .cons check10 <| .cons check11 <| .cons check12 <| .cons check13 <| .cons check14 <| .cons check15 <| .cons check16 <| .cons check17 <| .cons check18 <| .cons check19 .nil

theorem masks : (certs.map mask).foldr Nat.lor 0 = 67108863 := by
  simp only [certs, List.map_cons, List.map_nil, List.foldr_cons, List.foldr_nil, mask0, mask1, mask2, mask3, mask4, mask5, mask6, mask7, mask8, mask9, mask10, mask11, mask12, mask13, mask14, mask15, mask16, mask17, mask18, mask19]
  kernel_rfl

theorem covers : covered never 67108863 source 0 = true := by kernel_rfl

theorem below : ∀ c ∈ certs.flatten, ∀ p ∈ positions c, p.2 < 128 := by
  intro c hc p hp
  simp only [certs, List.flatten_cons, List.flatten_nil, List.mem_append, List.not_mem_nil, or_false] at hc
  rcases hc with hc | hc | hc | hc | hc | hc | hc | hc | hc | hc | hc | hc | hc | hc | hc | hc | hc | hc | hc | hc
  · exact of_decide_eq_true (List.all_eq_true.1 (List.all_eq_true.1 below0 c hc) p hp)
  · exact of_decide_eq_true (List.all_eq_true.1 (List.all_eq_true.1 below1 c hc) p hp)
  · exact of_decide_eq_true (List.all_eq_true.1 (List.all_eq_true.1 below2 c hc) p hp)
  · exact of_decide_eq_true (List.all_eq_true.1 (List.all_eq_true.1 below3 c hc) p hp)
  · exact of_decide_eq_true (List.all_eq_true.1 (List.all_eq_true.1 below4 c hc) p hp)
  · exact of_decide_eq_true (List.all_eq_true.1 (List.all_eq_true.1 below5 c hc) p hp)
  · exact of_decide_eq_true (List.all_eq_true.1 (List.all_eq_true.1 below6 c hc) p hp)
  · exact of_decide_eq_true (List.all_eq_true.1 (List.all_eq_true.1 below7 c hc) p hp)
  · exact of_decide_eq_true (List.all_eq_true.1 (List.all_eq_true.1 below8 c hc) p hp)
  · exact of_decide_eq_true (List.all_eq_true.1 (List.all_eq_true.1 below9 c hc) p hp)
  · exact of_decide_eq_true (List.all_eq_true.1 (List.all_eq_true.1 below10 c hc) p hp)
  · exact of_decide_eq_true (List.all_eq_true.1 (List.all_eq_true.1 below11 c hc) p hp)
  · exact of_decide_eq_true (List.all_eq_true.1 (List.all_eq_true.1 below12 c hc) p hp)
  · exact of_decide_eq_true (List.all_eq_true.1 (List.all_eq_true.1 below13 c hc) p hp)
  · exact of_decide_eq_true (List.all_eq_true.1 (List.all_eq_true.1 below14 c hc) p hp)
  · exact of_decide_eq_true (List.all_eq_true.1 (List.all_eq_true.1 below15 c hc) p hp)
  · exact of_decide_eq_true (List.all_eq_true.1 (List.all_eq_true.1 below16 c hc) p hp)
  · exact of_decide_eq_true (List.all_eq_true.1 (List.all_eq_true.1 below17 c hc) p hp)
  · exact of_decide_eq_true (List.all_eq_true.1 (List.all_eq_true.1 below18 c hc) p hp)
  · exact of_decide_eq_true (List.all_eq_true.1 (List.all_eq_true.1 below19 c hc) p hp)

theorem source_eq : source.flatten = Sd1SupermergerBlocks.table.entries := by
  simp [source, Table.entries, Sd1SupermergerBlocks.table, Sd1SupermergerBlocks.blocks]

theorem target_eq : target.flatten = Sd1Ldm.table.entries.map scalar := by
  simp [target, Table.entries, Sd1Ldm.table, Sd1Ldm.clip_l, Sd1Ldm.vae, Sd1Ldm.diffuser, Sd1Ldm.ema, Sd1Ldm.scheduler]

end Verif.Data.CertSd1Blocks
