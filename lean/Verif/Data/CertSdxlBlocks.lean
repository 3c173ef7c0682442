import Verif.Data.SdxlSgm
import Verif.Data.SdxlSupermergerBlocks
import Verif.Proofs.ConvertLost

/-!
# Certificates for the conversion from `sdxl-supermerger_blocks` to `sdxl-sgm`

Generated by tools/gen_certs.py, checked by the kernel.
-/
namespace Verif.Data.CertSdxlBlocks
open Fast

/-- The chunks of the source -/
noncomputable def source : List (List Entry) := [SdxlSupermergerBlocks.blocks0]
/-- The chunks of the target -/
noncomputable def target : List (List Entry) := [SdxlSgm.clip_l0.map scalar, SdxlSgm.clip_l1.map scalar, SdxlSgm.clip_g0.map scalar, SdxlSgm.clip_g1.map scalar, SdxlSgm.clip_g2.map scalar, SdxlSgm.clip_g3.map scalar, SdxlSgm.vae0.map scalar, SdxlSgm.vae1.map scalar, SdxlSgm.vae2.map scalar, SdxlSgm.diffuser0.map scalar, SdxlSgm.diffuser1.map scalar, SdxlSgm.diffuser2.map scalar, SdxlSgm.diffuser3.map scalar, SdxlSgm.diffuser4.map scalar, SdxlSgm.diffuser5.map scalar, SdxlSgm.diffuser6.map scalar, SdxlSgm.diffuser7.map scalar, SdxlSgm.diffuser8.map scalar, SdxlSgm.diffuser9.map scalar, SdxlSgm.diffuser10.map scalar, SdxlSgm.diffuser11.map scalar, SdxlSgm.diffuser12.map scalar, SdxlSgm.diffuser13.map scalar, SdxlSgm.diffuser14.map scalar, SdxlSgm.diffuser15.map scalar, SdxlSgm.diffuser16.map scalar]

noncomputable def cert0 : List Cert := [.read 0 0, .read 0 0, .read 0 0, .read 0 0, .read 0 0, .read 0 0, .read 0 0, .read 0 0, .read 0 0, .read 0 0, .read 0 0, .read 0 0, .read 0 0, .read 0 0, .read 0 0, .read 0 0, .read 0 0, .read 0 0, .read 0 0, .read 0 0, .read 0 0, .read 0 0, .read 0 0, .read 0 0, .read 0 0, .read 0 0, .read 0 0, .read 0 0, .read 0 0, .read 0 0, .read 0 0, .read 0 0, .read 0 0, .read 0 0, .read 0 0, .read 0 0, .read 0 0, .read 0 0, .read 0 0, .read 0 0, .read 0 0, .read 0 0, .read 0 0, .read 0 0, .read 0 0, .read 0 0, .read 0 0, .read 0 0, .read 0 0, .read 0 0, .read 0 0, .read 0 0, .read 0 0, .read 0 0, .read 0 0, .read 0 0, .read 0 0, .read 0 0, .read 0 0, .read 0 0, .read 0 0, .read 0 0, .read 0 0, .read 0 0, .read 0 0, .read 0 0, .read 0 0, .read 0 0, .read 0 0, .read 0 0, .read 0 0, .read 0 0, .read 0 0, .read 0 0, .read 0 0, .read 0 0, .read 0 0, .read 0 0, .read 0 0, .read 0 0, .read 0 0, .read 0 0, .read 0 0, .read 0 0, .read 0 0, .read 0 0, .read 0 0, .read 0 0, .read 0 0, .read 0 0, .read 0 0, .read 0 0, .read 0 0, .read 0 0, .read 0 0, .read 0 0, .read 0 0, .read 0 0, .read 0 0, .read 0 0]
theorem check0 : checkAll source sdxlBlocks sdxlBlocksSpec never (SdxlSgm.clip_l0.map scalar) cert0 = true := by kernel_rfl
theorem mask0 : mask cert0 = 1 := by kernel_rfl
theorem below0 : cert0.all (fun c => (positions c).all fun p => decide (p.2 < 128)) = true := by kernel_rfl

noncomputable def cert1 : List Cert := [.read 0 0, .read 0 0, .read 0 0, .read 0 0, .read 0 0, .read 0 0, .read 0 0, .read 0 0, .read 0 0, .read 0 0, .read 0 0, .read 0 0, .read 0 0, .read 0 0, .read 0 0, .read 0 0, .read 0 0, .read 0 0, .read 0 0, .read 0 0, .read 0 0, .read 0 0, .read 0 0, .read 0 0, .read 0 0, .read 0 0, .read 0 0, .read 0 0, .read 0 0, .read 0 0, .read 0 0, .read 0 0, .read 0 0, .read 0 0, .read 0 0, .read 0 0, .read 0 0, .read 0 0, .read 0 0, .read 0 0, .read 0 0, .read 0 0, .read 0 0, .read 0 0, .read 0 0, .read 0 0, .read 0 0, .read 0 0, .read 0 0, .read 0 0, .read 0 0, .read 0 0, .read 0 0, .read 0 0, .read 0 0, .read 0 0, .read 0 0, .read 0 0, .read 0 0, .read 0 0, .read 0 0, .read 0 0, .read 0 0, .read 0 0, .read 0 0, .read 0 0, .read 0 0, .read 0 0, .read 0 0, .read 0 0, .read 0 0, .read 0 0, .read 0 0, .read 0 0, .read 0 0, .read 0 0, .read 0 0, .read 0 0, .read 0 0, .read 0 0, .read 0 0, .read 0 0, .read 0 0, .read 0 0, .read 0 0, .read 0 0, .read 0 0, .read 0 0, .read 0 0, .read 0 0, .read 0 0, .read 0 0, .read 0 0, .read 0 0, .read 0 0, .read 0 0, .read 0 0]
theorem check1 : checkAll source sdxlBlocks sdxlBlocksSpec never (SdxlSgm.clip_l1.map scalar) cert1 = true := by kernel_rfl
theorem mask1 : mask cert1 = 1 := by kernel_rfl
theorem below1 : cert1.all (fun c => (positions c).all fun p => decide (p.2 < 128)) = true := by kernel_rfl

noncomputable def cert2 : List Cert := [.read 0 0, .read 0 0, .read 0 0, .read 0 0, .read 0 0, .read 0 0, .read 0 0, .read 0 0, .read 0 0, .read 0 0, .read 0 0, .read 0 0, .read 0 0, .read 0 0, .read 0 0, .read 0 0, .read 0 0, .read 0 0, .read 0 0, .read 0 0, .read 0 0, .read 0 0, .read 0 0, .read 0 0, .read 0 0, .read 0 0, .read 0 0, .read 0 0, .read 0 0, .read 0 0, .read 0 0, .read 0 0, .read 0 0, .read 0 0, .read 0 0, .read 0 0, .read 0 0, .read 0 0, .read 0 0, .read 0 0, .read 0 0, .read 0 0, .read 0 0, .read 0 0, .read 0 0, .read 0 0, .read 0 0, .read 0 0, .read 0 0, .read 0 0, .read 0 0, .read 0 0, .read 0 0, .read 0 0, .read 0 0, .read 0 0, .read 0 0, .read 0 0, .read 0 0, .read 0 0, .read 0 0, .read 0 0, .read 0 0, .read 0 0, .read 0 0, .read 0 0, .read 0 0, .read 0 0, .read 0 0, .read 0 0, .read 0 0, .read 0 0, .read 0 0, .read 0 0, .read 0 0, .read 0 0, .read 0 0, .read 0 0, .read 0 0, .read 0 0, .read 0 0, .read 0 0, .read 0 0, .read 0 0, .read 0 0, .read 0 0, .read 0 0, .read 0 0, .read 0 0, .read 0 0, .read 0 0, .read 0 0, .read 0 0, .read 0 0, .read 0 0, .read 0 0, .read 0 0, .read 0 0, .read 0 0, .read 0 0]
theorem check2 : checkAll source sdxlBlocks sdxlBlocksSpec never (SdxlSgm.clip_g0.map scalar) cert2 = true := by kernel_rfl
theorem mask2 : mask cert2 = 1 := by kernel_rfl
theorem below2 : cert2.all (fun c => (positions c).all fun p => decide (p.2 < 128)) = true := by kernel_rfl

noncomputable def cert3 : List Cert := [.read 0 0, .read 0 0, .read 0 0, .read 0 0, .read 0 0, .read 0 0, .read 0 0, .read 0 0, .read 0 0, .read 0 0, .read 0 0, .read 0 0, .read 0 0, .read 0 0, .read 0 0, .read 0 0, .read 0 0, .read 0 0, .read 0 0, .read 0 0, .read 0 0, .read 0 0, .read 0 0, .read 0 0, .read 0 0, .read 0 0, .read 0 0, .read 0 0, .read 0 0, .read 0 0, .read 0 0, .read 0 0, .read 0 0, .read 0 0, .read 0 0, .read 0 0, .read 0 0, .read 0 0, .read 0 0, .read 0 0, .read 0 0, .read 0 0, .read 0 0, .read 0 0, .read 0 0, .read 0 0, .read 0 0, .read 0 0, .read 0 0, .read 0 0, .read 0 0, .read 0 0, .read 0 0, .read 0 0, .read 0 0, .read 0 0, .read 0 0, .read 0 0, .read 0 0, .read 0 0, .read 0 0, .read 0 0, .read 0 0, .read 0 0, .read 0 0, .read 0 0, .read 0 0, .read 0 0, .read 0 0, .read 0 0, .read 0 0, .read 0 0, .read 0 0, .read 0 0, .read 0 0, .read 0 0, .read 0 0, .read 0 0, .read 0 0, .read 0 0, .read 0 0, .read 0 0, .read 0 0, .read 0 0, .read 0 0, .read 0 0, .read 0 0, .read 0 0, .read 0 0, .read 0 0, .read 0 0, .read 0 0, .read 0 0, .read 0 0, .read 0 0, .read 0 0, .read 0 0, .read 0 0, .read 0 0, .read 0 0]
theorem check3 : checkAll source sdxlBlocks sdxlBlocksSpec never (SdxlSgm.clip_g1.map scalar) cert3 = true := by kernel_rfl
theorem mask3 : mask cert3 = 1 := by kernel_rfl
theorem below3 : cert3.all (fun c => (positions c).all fun p => decide (p.2 < 128)) = true := by kernel_rfl

noncomputable def cert4 : List Cert := [.read 0 0, .read 0 0, .read 0 0, .read 0 0, .read 0 0, .read 0 0, .read 0 0, .read 0 0, .read 0 0, .read 0 0, .read 0 0, .read 0 0, .read 0 0, .read 0 0, .read 0 0, .read 0 0, .read 0 0, .read 0 0, .read 0 0, .read 0 0, .read 0 0, .read 0 0, .read 0 0, .read 0 0, .read 0 0, .read 0 0, .read 0 0, .read 0 0, .read 0 0, .read 0 0, .read 0 0, .read 0 0, .read 0 0, .read 0 0, .read 0 0, .read 0 0, .read 0 0, .read 0 0, .read 0 0, .read 0 0, .read 0 0, .read 0 0, .read 0 0, .read 0 0, .read 0 0, .read 0 0, .read 0 0, .read 0 0, .read 0 0, .read 0 0, .read 0 0, .read 0 0, .read 0 0, .read 0 0, .read 0 0, .read 0 0, .read 0 0, .read 0 0, .read 0 0, .read 0 0, .read 0 0, .read 0 0, .read 0 0, .read 0 0, .read 0 0, .read 0 0, .read 0 0, .read 0 0, .read 0 0, .read 0 0, .read 0 0, .read 0 0, .read 0 0, .read 0 0, .read 0 0, .read 0 0, .read 0 0, .read 0 0, .read 0 0, .read 0 0, .read 0 0, .read 0 0, .read 0 0, .read 0 0, .read 0 0, .read 0 0, .read 0 0, .read 0 0, .read 0 0, .read 0 0, .read 0 0, .read 0 0, .read 0 0, .read 0 0, .read 0 0, .read 0 0, .read 0 0, .read 0 0, .read 0 0, .read 0 0]
theorem check4 : checkAll source sdxlBlocks sdxlBlocksSpec never (SdxlSgm.clip_g2.map scalar) cert4 = true := by kernel_rfl
theorem mask4 : mask cert4 = 1 := by kernel_rfl
theorem below4 : cert4.all (fun c => (positions c).all fun p => decide (p.2 < 128)) = true := by kernel_rfl

noncomputable def cert5 : List Cert := [.read 0 0, .read 0 0, .read 0 0, .read 0 0, .read 0 0, .read 0 0, .read 0 0, .read 0 0, .read 0 0, .read 0 0, .read 0 0, .read 0 0, .read 0 0, .read 0 0, .read 0 0, .read 0 0, .read 0 0, .read 0 0, .read 0 0, .read 0 0, .read 0 0, .read 0 0, .read 0 0, .read 0 0, .read 0 0, .read 0 0, .read 0 0, .read 0 0, .read 0 0, .read 0 0, .read 0 0, .read 0 0, .read 0 0, .read 0 0, .read 0 0, .read 0 0, .read 0 0, .read 0 0, .read 0 0, .read 0 0, .read 0 0, .read 0 0, .read 0 0, .read 0 0, .read 0 0, .read 0 0, .read 0 0, .read 0 0, .read 0 0, .read 0 0, .read 0 0, .read 0 0, .read 0 0, .read 0 0, .read 0 0, .read 0 0, .read 0 0, .read 0 0, .read 0 0, .read 0 0, .read 0 0, .read 0 0, .read 0 0, .read 0 0, .read 0 0, .read 0 0, .read 0 0, .read 0 0, .read 0 0, .read 0 0, .read 0 0, .read 0 0, .read 0 0, .read 0 0, .read 0 0, .read 0 0, .read 0 0, .read 0 0, .read 0 0, .read 0 0, .read 0 0, .read 0 0, .read 0 0, .read 0 0, .read 0 0, .read 0 0, .read 0 0, .read 0 0, .read 0 0, .read 0 0]
theorem check5 : checkAll source sdxlBlocks sdxlBlocksSpec never (SdxlSgm.clip_g3.map scalar) cert5 = true := by kernel_rfl
theorem mask5 : mask cert5 = 1 := by kernel_rfl
theorem below5 : cert5.all (fun c => (positions c).all fun p => decide (p.2 < 128)) = true := by kernel_rfl

noncomputable def cert6 : List Cert := [.read 0 20, .read 0 20, .read 0 20, .read 0 20, .read 0 20, .read 0 20, .read 0 20, .read 0 20, .read 0 20, .read 0 20, .read 0 20, .read 0 20, .read 0 20, .read 0 20, .read 0 20, .read 0 20, .read 0 20, .read 0 20, .read 0 20, .read 0 20, .read 0 20, .read 0 20, .read 0 20, .read 0 20, .read 0 20, .read 0 20, .read 0 20, .read 0 20, .read 0 20, .read 0 20, .read 0 20, .read 0 20, .read 0 20, .read 0 20, .read 0 20, .read 0 20, .read 0 20, .read 0 20, .read 0 20, .read 0 20, .read 0 20, .read 0 20, .read 0 20, .read 0 20, .read 0 20, .read 0 20, .read 0 20, .read 0 20, .read 0 20, .read 0 20, .read 0 20, .read 0 20, .read 0 20, .read 0 20, .read 0 20, .read 0 20, .read 0 20, .read 0 20, .read 0 20, .read 0 20, .read 0 20, .read 0 20, .read 0 20, .read 0 20, .read 0 20, .read 0 20, .read 0 20, .read 0 20, .read 0 20, .read 0 20, .read 0 20, .read 0 20, .read 0 20, .read 0 20, .read 0 20, .read 0 20, .read 0 20, .read 0 20, .read 0 20, .read 0 20, .read 0 20, .read 0 20, .read 0 20, .read 0 20, .read 0 20, .read 0 20, .read 0 20, .read 0 20, .read 0 20, .read 0 20, .read 0 20, .read 0 20, .read 0 20, .read 0 20, .read 0 20, .read 0 20, .read 0 20, .read 0 20, .read 0 20, .read 0 20]
theorem check6 : checkAll source sdxlBlocks sdxlBlocksSpec never (SdxlSgm.vae0.map scalar) cert6 = true := by kernel_rfl
theorem mask6 : mask cert6 = 1048576 := by kernel_rfl
theorem below6 : cert6.all (fun c => (positions c).all fun p => decide (p.2 < 128)) = true := by kernel_rfl

noncomputable def cert7 : List Cert := [.read 0 20, .read 0 20, .read 0 20, .read 0 20, .read 0 20, .read 0 20, .read 0 20, .read 0 20, .read 0 20, .read 0 20, .read 0 20, .read 0 20, .read 0 20, .read 0 20, .read 0 20, .read 0 20, .read 0 20, .read 0 20, .read 0 20, .read 0 20, .read 0 20, .read 0 20, .read 0 20, .read 0 20, .read 0 20, .read 0 20, .read 0 20, .read 0 20, .read 0 20, .read 0 20, .read 0 20, .read 0 20, .read 0 20, .read 0 20, .read 0 20, .read 0 20, .read 0 20, .read 0 20, .read 0 20, .read 0 20, .read 0 20, .read 0 20, .read 0 20, .read 0 20, .read 0 20, .read 0 20, .read 0 20, .read 0 20, .read 0 20, .read 0 20, .read 0 20, .read 0 20, .read 0 20, .read 0 20, .read 0 20, .read 0 20, .read 0 20, .read 0 20, .read 0 20, .read 0 20, .read 0 20, .read 0 20, .read 0 20, .read 0 20, .read 0 20, .read 0 20, .read 0 20, .read 0 20, .read 0 20, .read 0 20, .read 0 20, .read 0 20, .read 0 20, .read 0 20, .read 0 20, .read 0 20, .read 0 20, .read 0 20, .read 0 20, .read 0 20, .read 0 20, .read 0 20, .read 0 20, .read 0 20, .read 0 20, .read 0 20, .read 0 20, .read 0 20, .read 0 20, .read 0 20, .read 0 20, .read 0 20, .read 0 20, .read 0 20, .read 0 20, .read 0 20, .read 0 20, .read 0 20, .read 0 20, .read 0 20]
theorem check7 : checkAll source sdxlBlocks sdxlBlocksSpec never (SdxlSgm.vae1.map scalar) cert7 = true := by kernel_rfl
theorem mask7 : mask cert7 = 1048576 := by kernel_rfl
theorem below7 : cert7.all (fun c => (positions c).all fun p => decide (p.2 < 128)) = true := by kernel_rfl

noncomputable def cert8 : List Cert := [.read 0 20, .read 0 20, .read 0 20, .read 0 20, .read 0 20, .read 0 20, .read 0 20, .read 0 20, .read 0 20, .read 0 20, .read 0 20, .read 0 20, .read 0 20, .read 0 20, .read 0 20, .read 0 20, .read 0 20, .read 0 20, .read 0 20, .read 0 20, .read 0 20, .read 0 20, .read 0 20, .read 0 20, .read 0 20, .read 0 20, .read 0 20, .read 0 20, .read 0 20, .read 0 20, .read 0 20, .read 0 20, .read 0 20, .read 0 20, .read 0 20, .read 0 20, .read 0 20, .read 0 20, .read 0 20, .read 0 20, .read 0 20, .read 0 20, .read 0 20, .read 0 20, .read 0 20, .read 0 20, .read 0 20, .read 0 20]
theorem check8 : checkAll source sdxlBlocks sdxlBlocksSpec never (SdxlSgm.vae2.map scalar) cert8 = true := by kernel_rfl
theorem mask8 : mask cert8 = 1048576 := by kernel_rfl
theorem below8 : cert8.all (fun c => (positions c).all fun p => decide (p.2 < 128)) = true := by kernel_rfl

noncomputable def cert9 : List Cert := [.read 0 0, .read 0 0, .read 0 1, .read 0 1, .read 0 2, .read 0 2, .read 0 2, .read 0 2, .read 0 2, .read 0 2, .read 0 2, .read 0 2, .read 0 2, .read 0 2, .read 0 3, .read 0 3, .read 0 3, .read 0 3, .read 0 3, .read 0 3, .read 0 3, .read 0 3, .read 0 3, .read 0 3, .read 0 4, .read 0 4, .read 0 5, .read 0 5, .read 0 5, .read 0 5, .read 0 5, .read 0 5, .read 0 5, .read 0 5, .read 0 5, .read 0 5, .read 0 5, .read 0 5, .read 0 5, .read 0 5, .read 0 5, .read 0 5, .read 0 5, .read 0 5, .read 0 5, .read 0 5, .read 0 5, .read 0 5, .read 0 5, .read 0 5, .read 0 5, .read 0 5, .read 0 5, .read 0 5, .read 0 5, .read 0 5, .read 0 5, .read 0 5, .read 0 5, .read 0 5, .read 0 5, .read 0 5, .read 0 5, .read 0 5, .read 0 5, .read 0 5, .read 0 5, .read 0 5, .read 0 5, .read 0 5, .read 0 5, .read 0 5, .read 0 5, .read 0 5, .read 0 5, .read 0 5, .read 0 5, .read 0 5, .read 0 5, .read 0 5, .read 0 5, .read 0 5, .read 0 5, .read 0 5, .read 0 6, .read 0 6, .read 0 6, .read 0 6, .read 0 6, .read 0 6, .read 0 6, .read 0 6, .read 0 6, .read 0 6, .read 0 6, .read 0 6, .read 0 6, .read 0 6, .read 0 6, .read 0 6]
theorem check9 : checkAll source sdxlBlocks sdxlBlocksSpec never (SdxlSgm.diffuser0.map scalar) cert9 = true := by kernel_rfl
theorem mask9 : mask cert9 = 127 := by kernel_rfl
theorem below9 : cert9.all (fun c => (positions c).all fun p => decide (p.2 < 128)) = true := by kernel_rfl

noncomputable def cert10 : List Cert := [.read 0 6, .read 0 6, .read 0 6, .read 0 6, .read 0 6, .read 0 6, .read 0 6, .read 0 6, .read 0 6, .read 0 6, .read 0 6, .read 0 6, .read 0 6, .read 0 6, .read 0 6, .read 0 6, .read 0 6, .read 0 6, .read 0 6, .read 0 6, .read 0 6, .read 0 6, .read 0 6, .read 0 6, .read 0 6, .read 0 6, .read 0 6, .read 0 6, .read 0 6, .read 0 6, .read 0 6, .read 0 6, .read 0 6, .read 0 6, .read 0 6, .read 0 6, .read 0 6, .read 0 6, .read 0 6, .read 0 6, .read 0 7, .read 0 7, .read 0 8, .read 0 8, .read 0 8, .read 0 8, .read 0 8, .read 0 8, .read 0 8, .read 0 8, .read 0 8, .read 0 8, .read 0 8, .read 0 8, .read 0 8, .read 0 8, .read 0 8, .read 0 8, .read 0 8, .read 0 8, .read 0 8, .read 0 8, .read 0 8, .read 0 8, .read 0 8, .read 0 8, .read 0 8, .read 0 8, .read 0 8, .read 0 8, .read 0 8, .read 0 8, .read 0 8, .read 0 8, .read 0 8, .read 0 8, .read 0 8, .read 0 8, .read 0 8, .read 0 8, .read 0 8, .read 0 8, .read 0 8, .read 0 8, .read 0 8, .read 0 8, .read 0 8, .read 0 8, .read 0 8, .read 0 8, .read 0 8, .read 0 8, .read 0 8, .read 0 8, .read 0 8, .read 0 8, .read 0 8, .read 0 8, .read 0 8, .read 0 8]
theorem check10 : checkAll source sdxlBlocks sdxlBlocksSpec never (SdxlSgm.diffuser1.map scalar) cert10 = true := by kernel_rfl
theorem mask10 : mask cert10 = 448 := by kernel_rfl
theorem below10 : cert10.all (fun c => (positions c).all fun p => decide (p.2 < 128)) = true := by kernel_rfl

noncomputable def cert11 : List Cert := [.read 0 8, .read 0 8, .read 0 8, .read 0 8, .read 0 8, .read 0 8, .read 0 8, .read 0 8, .read 0 8, .read 0 8, .read 0 8, .read 0 8, .read 0 8, .read 0 8, .read 0 8, .read 0 8, .read 0 8, .read 0 8, .read 0 8, .read 0 8, .read 0 8, .read 0 8, .read 0 8, .read 0 8, .read 0 8, .read 0 8, .read 0 8, .read 0 8, .read 0 8, .read 0 8, .read 0 8, .read 0 8, .read 0 8, .read 0 8, .read 0 8, .read 0 8, .read 0 8, .read 0 8, .read 0 8, .read 0 8, .read 0 8, .read 0 8, .read 0 8, .read 0 8, .read 0 8, .read 0 8, .read 0 8, .read 0 8, .read 0 8, .read 0 8, .read 0 8, .read 0 8, .read 0 8, .read 0 8, .read 0 8, .read 0 8, .read 0 8, .read 0 8, .read 0 8, .read 0 8, .read 0 8, .read 0 8, .read 0 8, .read 0 8, .read 0 8, .read 0 8, .read 0 8, .read 0 8, .read 0 8, .read 0 8, .read 0 8, .read 0 8, .read 0 8, .read 0 8, .read 0 8, .read 0 8, .read 0 8, .read 0 8, .read 0 8, .read 0 8, .read 0 8, .read 0 8, .read 0 8, .read 0 8, .read 0 8, .read 0 8, .read 0 8, .read 0 8, .read 0 8, .read 0 8, .read 0 8, .read 0 8, .read 0 8, .read 0 8, .read 0 8, .read 0 8, .read 0 8, .read 0 8, .read 0 8, .read 0 8]
theorem check11 : checkAll source sdxlBlocks sdxlBlocksSpec never (SdxlSgm.diffuser2.map scalar) cert11 = true := by kernel_rfl
theorem mask11 : mask cert11 = 256 := by kernel_rfl
theorem below11 : cert11.all (fun c => (positions c).all fun p => decide (p.2 < 128)) = true := by kernel_rfl

noncomputable def cert12 : List Cert := [.read 0 8, .read 0 8, .read 0 8, .read 0 8, .read 0 8, .read 0 8, .read 0 8, .read 0 8, .read 0 8, .read 0 8, .read 0 8, .read 0 8, .read 0 8, .read 0 8, .read 0 8, .read 0 8, .read 0 8, .read 0 8, .read 0 8, .read 0 8, .read 0 8, .read 0 8, .read 0 8, .read 0 8, .read 0 8, .read 0 8, .read 0 8, .read 0 8, .read 0 8, .read 0 8, .read 0 8, .read 0 8, .read 0 8, .read 0 8, .read 0 8, .read 0 8, .read 0 8, .read 0 8, .read 0 8, .read 0 8, .read 0 8, .read 0 8, .read 0 8, .read 0 8, .read 0 8, .read 0 8, .read 0 8, .read 0 8, .read 0 8, .read 0 8, .read 0 8, .read 0 8, .read 0 8, .read 0 8, .read 0 8, .read 0 8, .read 0 8, .read 0 8, .read 0 8, .read 0 8, .read 0 9, .read 0 9, .read 0 9, .read 0 9, .read 0 9, .read 0 9, .read 0 9, .read 0 9, .read 0 9, .read 0 9, .read 0 9, .read 0 9, .read 0 9, .read 0 9, .read 0 9, .read 0 9, .read 0 9, .read 0 9, .read 0 9, .read 0 9, .read 0 9, .read 0 9, .read 0 9, .read 0 9, .read 0 9, .read 0 9, .read 0 9, .read 0 9, .read 0 9, .read 0 9, .read 0 9, .read 0 9, .read 0 9, .read 0 9, .read 0 9, .read 0 9, .read 0 9, .read 0 9, .read 0 9, .read 0 9]
theorem check12 : checkAll source sdxlBlocks sdxlBlocksSpec never (SdxlSgm.diffuser3.map scalar) cert12 = true := by kernel_rfl
theorem mask12 : mask cert12 = 768 := by kernel_rfl
theorem below12 : cert12.all (fun c => (positions c).all fun p => decide (p.2 < 128)) = true := by kernel_rfl

noncomputable def cert13 : List Cert := [.read 0 9, .read 0 9, .read 0 9, .read 0 9, .read 0 9, .read 0 9, .read 0 9, .read 0 9, .read 0 9, .read 0 9, .read 0 9, .read 0 9, .read 0 9, .read 0 9, .read 0 9, .read 0 9, .read 0 9, .read 0 9, .read 0 9, .read 0 9, .read 0 9, .read 0 9, .read 0 9, .read 0 9, .read 0 9, .read 0 9, .read 0 9, .read 0 9, .read 0 9, .read 0 9, .read 0 9, .read 0 9, .read 0 9, .read 0 9, .read 0 9, .read 0 9, .read 0 9, .read 0 9, .read 0 9, .read 0 9, .read 0 9, .read 0 9, .read 0 9, .read 0 9, .read 0 9, .read 0 9, .read 0 9, .read 0 9, .read 0 9, .read 0 9, .read 0 9, .read 0 9, .read 0 9, .read 0 9, .read 0 9, .read 0 9, .read 0 9, .read 0 9, .read 0 9, .read 0 9, .read 0 9, .read 0 9, .read 0 9, .read 0 9, .read 0 9, .read 0 9, .read 0 9, .read 0 9, .read 0 9, .read 0 9, .read 0 9, .read 0 9, .read 0 9, .read 0 9, .read 0 9, .read 0 9, .read 0 9, .read 0 9, .read 0 9, .read 0 9, .read 0 9, .read 0 9, .read 0 9, .read 0 9, .read 0 9, .read 0 9, .read 0 9, .read 0 9, .read 0 9, .read 0 9, .read 0 9, .read 0 9, .read 0 9, .read 0 9, .read 0 9, .read 0 9, .read 0 9, .read 0 9, .read 0 9, .read 0 9]
theorem check13 : checkAll source sdxlBlocks sdxlBlocksSpec never (SdxlSgm.diffuser4.map scalar) cert13 = true := by kernel_rfl
theorem mask13 : mask cert13 = 512 := by kernel_rfl
theorem below13 : cert13.all (fun c => (positions c).all fun p => decide (p.2 < 128)) = true := by kernel_rfl

noncomputable def cert14 : List Cert := [.read 0 9, .read 0 9, .read 0 9, .read 0 9, .read 0 9, .read 0 9, .read 0 9, .read 0 9, .read 0 9, .read 0 9, .read 0 9, .read 0 9, .read 0 9, .read 0 9, .read 0 9, .read 0 9, .read 0 9, .read 0 9, .read 0 9, .read 0 9, .read 0 9, .read 0 9, .read 0 9, .read 0 9, .read 0 9, .read 0 9, .read 0 9, .read 0 9, .read 0 9, .read 0 9, .read 0 9, .read 0 9, .read 0 9, .read 0 9, .read 0 9, .read 0 9, .read 0 9, .read 0 9, .read 0 9, .read 0 9, .read 0 9, .read 0 9, .read 0 9, .read 0 9, .read 0 9, .read 0 9, .read 0 9, .read 0 9, .read 0 9, .read 0 9, .read 0 9, .read 0 9, .read 0 9, .read 0 9, .read 0 9, .read 0 9, .read 0 9, .read 0 9, .read 0 9, .read 0 9, .read 0 9, .read 0 9, .read 0 9, .read 0 9, .read 0 9, .read 0 9, .read 0 9, .read 0 9, .read 0 9, .read 0 9, .read 0 9, .read 0 9, .read 0 9, .read 0 9, .read 0 9, .read 0 9, .read 0 0, .read 0 0, .read 0 0, .read 0 0, .read 0 10, .read 0 10, .read 0 10, .read 0 10, .read 0 10, .read 0 10, .read 0 10, .read 0 10, .read 0 10, .read 0 10, .read 0 10, .read 0 10, .read 0 10, .read 0 10, .read 0 10, .read 0 10, .read 0 10, .read 0 10, .read 0 10, .read 0 10]
theorem check14 : checkAll source sdxlBlocks sdxlBlocksSpec never (SdxlSgm.diffuser5.map scalar) cert14 = true := by kernel_rfl
theorem mask14 : mask cert14 = 1537 := by kernel_rfl
theorem below14 : cert14.all (fun c => (positions c).all fun p => decide (p.2 < 128)) = true := by kernel_rfl

noncomputable def cert15 : List Cert := [.read 0 10, .read 0 10, .read 0 10, .read 0 10, .read 0 10, .read 0 10, .read 0 10, .read 0 10, .read 0 10, .read 0 10, .read 0 10, .read 0 10, .read 0 10, .read 0 10, .read 0 10, .read 0 10, .read 0 10, .read 0 10, .read 0 10, .read 0 10, .read 0 10, .read 0 10, .read 0 10, .read 0 10, .read 0 10, .read 0 10, .read 0 10, .read 0 10, .read 0 10, .read 0 10, .read 0 10, .read 0 10, .read 0 10, .read 0 10, .read 0 10, .read 0 10, .read 0 10, .read 0 10, .read 0 10, .read 0 10, .read 0 10, .read 0 10, .read 0 10, .read 0 10, .read 0 10, .read 0 10, .read 0 10, .read 0 10, .read 0 10, .read 0 10, .read 0 10, .read 0 10, .read 0 10, .read 0 10, .read 0 10, .read 0 10, .read 0 10, .read 0 10, .read 0 10, .read 0 10, .read 0 10, .read 0 10, .read 0 10, .read 0 10, .read 0 10, .read 0 10, .read 0 10, .read 0 10, .read 0 10, .read 0 10, .read 0 10, .read 0 10, .read 0 10, .read 0 10, .read 0 10, .read 0 10, .read 0 10, .read 0 10, .read 0 10, .read 0 10, .read 0 10, .read 0 10, .read 0 10, .read 0 10, .read 0 10, .read 0 10, .read 0 10, .read 0 10, .read 0 10, .read 0 10, .read 0 10, .read 0 10, .read 0 10, .read 0 10, .read 0 10, .read 0 10, .read 0 10, .read 0 10, .read 0 10, .read 0 10]
theorem check15 : checkAll source sdxlBlocks sdxlBlocksSpec never (SdxlSgm.diffuser6.map scalar) cert15 = true := by kernel_rfl
theorem mask15 : mask cert15 = 1024 := by kernel_rfl
theorem below15 : cert15.all (fun c => (positions c).all fun p => decide (p.2 < 128)) = true := by kernel_rfl

noncomputable def cert16 : List Cert := [.read 0 10, .read 0 10, .read 0 10, .read 0 10, .read 0 10, .read 0 10, .read 0 10, .read 0 10, .read 0 10, .read 0 10, .read 0 10, .read 0 10, .read 0 10, .read 0 10, .read 0 10, .read 0 10, .read 0 10, .read 0 10, .read 0 10, .read 0 10, .read 0 10, .read 0 10, .read 0 10, .read 0 10, .read 0 10, .read 0 10, .read 0 10, .read 0 10, .read 0 10, .read 0 10, .read 0 10, .read 0 10, .read 0 10, .read 0 10, .read 0 10, .read 0 10, .read 0 10, .read 0 10, .read 0 10, .read 0 10, .read 0 10, .read 0 10, .read 0 10, .read 0 10, .read 0 10, .read 0 10, .read 0 10, .read 0 10, .read 0 10, .read 0 10, .read 0 10, .read 0 10, .read 0 10, .read 0 10, .read 0 10, .read 0 10, .read 0 10, .read 0 10, .read 0 10, .read 0 10, .read 0 10, .read 0 10, .read 0 10, .read 0 10, .read 0 10, .read 0 10, .read 0 10, .read 0 10, .read 0 10, .read 0 10, .read 0 10, .read 0 10, .read 0 10, .read 0 10, .read 0 10, .read 0 10, .read 0 10, .read 0 10, .read 0 10, .read 0 10, .read 0 10, .read 0 10, .read 0 10, .read 0 10, .read 0 10, .read 0 10, .read 0 10, .read 0 10, .read 0 10, .read 0 10, .read 0 10, .read 0 10, .read 0 10, .read 0 10, .read 0 10, .read 0 10, .read 0 10, .read 0 10, .read 0 10, .read 0 10]
theorem check16 : checkAll source sdxlBlocks sdxlBlocksSpec never (SdxlSgm.diffuser7.map scalar) cert16 = true := by kernel_rfl
theorem mask16 : mask cert16 = 1024 := by kernel_rfl
theorem below16 : cert16.all (fun c => (positions c).all fun p => decide (p.2 < 128)) = true := by kernel_rfl

noncomputable def cert17 : List Cert := [.read 0 10, .read 0 10, .read 0 10, .read 0 10, .read 0 10, .read 0 10, .read 0 19, .read 0 19, .read 0 19, .read 0 19, .read 0 11, .read 0 11, .read 0 11, .read 0 11, .read 0 11, .read 0 11, .read 0 11, .read 0 11, .read 0 11, .read 0 11, .read 0 11, .read 0 11, .read 0 11, .read 0 11, .read 0 11, .read 0 11, .read 0 11, .read 0 11, .read 0 11, .read 0 11, .read 0 11, .read 0 11, .read 0 11, .read 0 11, .read 0 11, .read 0 11, .read 0 11, .read 0 11, .read 0 11, .read 0 11, .read 0 11, .read 0 11, .read 0 11, .read 0 11, .read 0 11, .read 0 11, .read 0 11, .read 0 11, .read 0 11, .read 0 11, .read 0 11, .read 0 11, .read 0 11, .read 0 11, .read 0 11, .read 0 11, .read 0 11, .read 0 11, .read 0 11, .read 0 11, .read 0 11, .read 0 11, .read 0 11, .read 0 11, .read 0 11, .read 0 11, .read 0 11, .read 0 11, .read 0 11, .read 0 11, .read 0 11, .read 0 11, .read 0 11, .read 0 11, .read 0 11, .read 0 11, .read 0 11, .read 0 11, .read 0 11, .read 0 11, .read 0 11, .read 0 11, .read 0 11, .read 0 11, .read 0 11, .read 0 11, .read 0 11, .read 0 11, .read 0 11, .read 0 11, .read 0 11, .read 0 11, .read 0 11, .read 0 11, .read 0 11, .read 0 11, .read 0 11, .read 0 11, .read 0 11, .read 0 11]
theorem check17 : checkAll source sdxlBlocks sdxlBlocksSpec never (SdxlSgm.diffuser8.map scalar) cert17 = true := by kernel_rfl
theorem mask17 : mask cert17 = 527360 := by kernel_rfl
theorem below17 : cert17.all (fun c => (positions c).all fun p => decide (p.2 < 128)) = true := by kernel_rfl

noncomputable def cert18 : List Cert := [.read 0 11, .read 0 11, .read 0 11, .read 0 11, .read 0 11, .read 0 11, .read 0 11, .read 0 11, .read 0 11, .read 0 11, .read 0 11, .read 0 11, .read 0 11, .read 0 11, .read 0 11, .read 0 11, .read 0 11, .read 0 11, .read 0 11, .read 0 11, .read 0 11, .read 0 11, .read 0 11, .read 0 11, .read 0 11, .read 0 11, .read 0 11, .read 0 11, .read 0 11, .read 0 11, .read 0 11, .read 0 11, .read 0 11, .read 0 11, .read 0 11, .read 0 11, .read 0 11, .read 0 11, .read 0 11, .read 0 11, .read 0 11, .read 0 11, .read 0 11, .read 0 11, .read 0 11, .read 0 11, .read 0 11, .read 0 11, .read 0 11, .read 0 11, .read 0 11, .read 0 11, .read 0 11, .read 0 11, .read 0 11, .read 0 11, .read 0 11, .read 0 11, .read 0 11, .read 0 11, .read 0 11, .read 0 11, .read 0 11, .read 0 11, .read 0 11, .read 0 11, .read 0 11, .read 0 11, .read 0 11, .read 0 11, .read 0 11, .read 0 11, .read 0 11, .read 0 11, .read 0 11, .read 0 11, .read 0 11, .read 0 11, .read 0 11, .read 0 11, .read 0 11, .read 0 11, .read 0 11, .read 0 11, .read 0 11, .read 0 11, .read 0 11, .read 0 11, .read 0 11, .read 0 11, .read 0 11, .read 0 11, .read 0 11, .read 0 11, .read 0 11, .read 0 11, .read 0 11, .read 0 11, .read 0 11, .read 0 11]
theorem check18 : checkAll source sdxlBlocks sdxlBlocksSpec never (SdxlSgm.diffuser9.map scalar) cert18 = true := by kernel_rfl
theorem mask18 : mask cert18 = 2048 := by kernel_rfl
theorem below18 : cert18.all (fun c => (positions c).all fun p => decide (p.2 < 128)) = true := by kernel_rfl

noncomputable def cert19 : List Cert := [.read 0 11, .read 0 11, .read 0 11, .read 0 11, .read 0 11, .read 0 11, .read 0 11, .read 0 11, .read 0 11, .read 0 11, .read 0 11, .read 0 11, .read 0 11, .read 0 11, .read 0 11, .read 0 11, .read 0 11, .read 0 11, .read 0 11, .read 0 11, .read 0 11, .read 0 11, .read 0 11, .read 0 11, .read 0 11, .read 0 11, .read 0 11, .read 0 11, .read 0 12, .read 0 12, .read 0 12, .read 0 12, .read 0 12, .read 0 12, .read 0 12, .read 0 12, .read 0 12, .read 0 12, .read 0 12, .read 0 12, .read 0 12, .read 0 12, .read 0 12, .read 0 12, .read 0 12, .read 0 12, .read 0 12, .read 0 12, .read 0 12, .read 0 12, .read 0 12, .read 0 12, .read 0 12, .read 0 12, .read 0 12, .read 0 12, .read 0 12, .read 0 12, .read 0 12, .read 0 12, .read 0 12, .read 0 12, .read 0 12, .read 0 12, .read 0 12, .read 0 12, .read 0 12, .read 0 12, .read 0 12, .read 0 12, .read 0 12, .read 0 12, .read 0 12, .read 0 12, .read 0 12, .read 0 12, .read 0 12, .read 0 12, .read 0 12, .read 0 12, .read 0 12, .read 0 12, .read 0 12, .read 0 12, .read 0 12, .read 0 12, .read 0 12, .read 0 12, .read 0 12, .read 0 12, .read 0 12, .read 0 12, .read 0 12, .read 0 12, .read 0 12, .read 0 12, .read 0 12, .read 0 12, .read 0 12, .read 0 12]
theorem check19 : checkAll source sdxlBlocks sdxlBlocksSpec never (SdxlSgm.diffuser10.map scalar) cert19 = true := by kernel_rfl
theorem mask19 : mask cert19 = 6144 := by kernel_rfl
theorem below19 : cert19.all (fun c => (positions c).all fun p => decide (p.2 < 128)) = true := by kernel_rfl

noncomputable def cert20 : List Cert := [.read 0 12, .read 0 12, .read 0 12, .read 0 12, .read 0 12, .read 0 12, .read 0 12, .read 0 12, .read 0 12, .read 0 12, .read 0 12, .read 0 12, .read 0 12, .read 0 12, .read 0 12, .read 0 12, .read 0 12, .read 0 12, .read 0 12, .read 0 12, .read 0 12, .read 0 12, .read 0 12, .read 0 12, .read 0 12, .read 0 12, .read 0 12, .read 0 12, .read 0 12, .read 0 12, .read 0 12, .read 0 12, .read 0 12, .read 0 12, .read 0 12, .read 0 12, .read 0 12, .read 0 12, .read 0 12, .read 0 12, .read 0 12, .read 0 12, .read 0 12, .read 0 12, .read 0 12, .read 0 12, .read 0 12, .read 0 12, .read 0 12, .read 0 12, .read 0 12, .read 0 12, .read 0 12, .read 0 12, .read 0 12, .read 0 12, .read 0 12, .read 0 12, .read 0 12, .read 0 12, .read 0 12, .read 0 12, .read 0 12, .read 0 12, .read 0 12, .read 0 12, .read 0 12, .read 0 12, .read 0 12, .read 0 12, .read 0 12, .read 0 12, .read 0 12, .read 0 12, .read 0 12, .read 0 12, .read 0 12, .read 0 12, .read 0 12, .read 0 12, .read 0 12, .read 0 12, .read 0 12, .read 0 12, .read 0 12, .read 0 12, .read 0 12, .read 0 12, .read 0 12, .read 0 12, .read 0 12, .read 0 12, .read 0 12, .read 0 12, .read 0 12, .read 0 12, .read 0 12, .read 0 12, .read 0 12, .read 0 12]
theorem check20 : checkAll source sdxlBlocks sdxlBlocksSpec never (SdxlSgm.diffuser11.map scalar) cert20 = true := by kernel_rfl
theorem mask20 : mask cert20 = 4096 := by kernel_rfl
theorem below20 : cert20.all (fun c => (positions c).all fun p => decide (p.2 < 128)) = true := by kernel_rfl

noncomputable def cert21 : List Cert := [.read 0 12, .read 0 12, .read 0 12, .read 0 12, .read 0 12, .read 0 12, .read 0 12, .read 0 12, .read 0 12, .read 0 12, .read 0 12, .read 0 12, .read 0 12, .read 0 12, .read 0 12, .read 0 12, .read 0 12, .read 0 12, .read 0 12, .read 0 12, .read 0 12, .read 0 12, .read 0 12, .read 0 12, .read 0 12, .read 0 12, .read 0 12, .read 0 12, .read 0 12, .read 0 12, .read 0 12, .read 0 12, .read 0 12, .read 0 12, .read 0 12, .read 0 12, .read 0 12, .read 0 12, .read 0 12, .read 0 12, .read 0 12, .read 0 12, .read 0 12, .read 0 12, .read 0 12, .read 0 12, .read 0 13, .read 0 13, .read 0 13, .read 0 13, .read 0 13, .read 0 13, .read 0 13, .read 0 13, .read 0 13, .read 0 13, .read 0 13, .read 0 13, .read 0 13, .read 0 13, .read 0 13, .read 0 13, .read 0 13, .read 0 13, .read 0 13, .read 0 13, .read 0 13, .read 0 13, .read 0 13, .read 0 13, .read 0 13, .read 0 13, .read 0 13, .read 0 13, .read 0 13, .read 0 13, .read 0 13, .read 0 13, .read 0 13, .read 0 13, .read 0 13, .read 0 13, .read 0 13, .read 0 13, .read 0 13, .read 0 13, .read 0 13, .read 0 13, .read 0 13, .read 0 13, .read 0 13, .read 0 13, .read 0 13, .read 0 13, .read 0 13, .read 0 13, .read 0 13, .read 0 13, .read 0 13, .read 0 13]
theorem check21 : checkAll source sdxlBlocks sdxlBlocksSpec never (SdxlSgm.diffuser12.map scalar) cert21 = true := by kernel_rfl
theorem mask21 : mask cert21 = 12288 := by kernel_rfl
theorem below21 : cert21.all (fun c => (positions c).all fun p => decide (p.2 < 128)) = true := by kernel_rfl

noncomputable def cert22 : List Cert := [.read 0 13, .read 0 13, .read 0 13, .read 0 13, .read 0 13, .read 0 13, .read 0 13, .read 0 13, .read 0 13, .read 0 13, .read 0 13, .read 0 13, .read 0 13, .read 0 13, .read 0 13, .read 0 13, .read 0 13, .read 0 13, .read 0 13, .read 0 13, .read 0 13, .read 0 13, .read 0 13, .read 0 13, .read 0 13, .read 0 13, .read 0 13, .read 0 13, .read 0 13, .read 0 13, .read 0 13, .read 0 13, .read 0 13, .read 0 13, .read 0 13, .read 0 13, .read 0 13, .read 0 13, .read 0 13, .read 0 13, .read 0 13, .read 0 13, .read 0 13, .read 0 13, .read 0 13, .read 0 13, .read 0 13, .read 0 13, .read 0 13, .read 0 13, .read 0 13, .read 0 13, .read 0 13, .read 0 13, .read 0 13, .read 0 13, .read 0 13, .read 0 13, .read 0 13, .read 0 13, .read 0 13, .read 0 13, .read 0 13, .read 0 13, .read 0 13, .read 0 13, .read 0 13, .read 0 13, .read 0 13, .read 0 13, .read 0 13, .read 0 13, .read 0 13, .read 0 13, .read 0 13, .read 0 13, .read 0 13, .read 0 13, .read 0 13, .read 0 13, .read 0 13, .read 0 13, .read 0 13, .read 0 13, .read 0 13, .read 0 13, .read 0 13, .read 0 13, .read 0 13, .read 0 13, .read 0 13, .read 0 13, .read 0 13, .read 0 13, .read 0 13, .read 0 13, .read 0 13, .read 0 13, .read 0 13, .read 0 13]
theorem check22 : checkAll source sdxlBlocks sdxlBlocksSpec never (SdxlSgm.diffuser13.map scalar) cert22 = true := by kernel_rfl
theorem mask22 : mask cert22 = 8192 := by kernel_rfl
theorem below22 : cert22.all (fun c => (positions c).all fun p => decide (p.2 < 128)) = true := by kernel_rfl

noncomputable def cert23 : List Cert := [.read 0 13, .read 0 13, .read 0 13, .read 0 13, .read 0 13, .read 0 13, .read 0 13, .read 0 13, .read 0 13, .read 0 13, .read 0 13, .read 0 13, .read 0 13, .read 0 13, .read 0 13, .read 0 13, .read 0 13, .read 0 13, .read 0 13, .read 0 13, .read 0 13, .read 0 13, .read 0 13, .read 0 13, .read 0 13, .read 0 13, .read 0 13, .read 0 13, .read 0 13, .read 0 13, .read 0 13, .read 0 13, .read 0 13, .read 0 13, .read 0 13, .read 0 13, .read 0 13, .read 0 13, .read 0 13, .read 0 13, .read 0 13, .read 0 13, .read 0 13, .read 0 13, .read 0 13, .read 0 13, .read 0 13, .read 0 13, .read 0 13, .read 0 13, .read 0 13, .read 0 13, .read 0 13, .read 0 13, .read 0 13, .read 0 13, .read 0 13, .read 0 13, .read 0 13, .read 0 13, .read 0 13, .read 0 13, .read 0 13, .read 0 13, .read 0 13, .read 0 13, .read 0 14, .read 0 14, .read 0 14, .read 0 14, .read 0 14, .read 0 14, .read 0 14, .read 0 14, .read 0 14, .read 0 14, .read 0 14, .read 0 14, .read 0 14, .read 0 14, .read 0 14, .read 0 14, .read 0 14, .read 0 14, .read 0 14, .read 0 14, .read 0 14, .read 0 14, .read 0 14, .read 0 14, .read 0 14, .read 0 14, .read 0 14, .read 0 14, .read 0 14, .read 0 14, .read 0 14, .read 0 14, .read 0 14, .read 0 14]
theorem check23 : checkAll source sdxlBlocks sdxlBlocksSpec never (SdxlSgm.diffuser14.map scalar) cert23 = true := by kernel_rfl
theorem mask23 : mask cert23 = 24576 := by kernel_rfl
theorem below23 : cert23.all (fun c => (positions c).all fun p => decide (p.2 < 128)) = true := by kernel_rfl

noncomputable def cert24 : List Cert := [.read 0 14, .read 0 14, .read 0 14, .read 0 14, .read 0 14, .read 0 14, .read 0 14, .read 0 14, .read 0 14, .read 0 14, .read 0 14, .read 0 14, .read 0 14, .read 0 14, .read 0 14, .read 0 14, .read 0 14, .read 0 14, .read 0 14, .read 0 14, .read 0 14, .read 0 14, .read 0 14, .read 0 14, .read 0 15, .read 0 15, .read 0 15, .read 0 15, .read 0 15, .read 0 15, .read 0 15, .read 0 15, .read 0 15, .read 0 15, .read 0 15, .read 0 15, .read 0 15, .read 0 15, .read 0 15, .read 0 15, .read 0 15, .read 0 15, .read 0 15, .read 0 15, .read 0 15, .read 0 15, .read 0 15, .read 0 15, .read 0 15, .read 0 15, .read 0 15, .read 0 15, .read 0 15, .read 0 15, .read 0 15, .read 0 15, .read 0 15, .read 0 15, .read 0 15, .read 0 15, .read 0 15, .read 0 15, .read 0 15, .read 0 15, .read 0 15, .read 0 15, .read 0 15, .read 0 15, .read 0 15, .read 0 15, .read 0 15, .read 0 15, .read 0 15, .read 0 15, .read 0 15, .read 0 15, .read 0 15, .read 0 15, .read 0 15, .read 0 15, .read 0 15, .read 0 15, .read 0 16, .read 0 16, .read 0 16, .read 0 16, .read 0 16, .read 0 16, .read 0 16, .read 0 16, .read 0 16, .read 0 16, .read 0 16, .read 0 16, .read 0 16, .read 0 16, .read 0 16, .read 0 16, .read 0 16, .read 0 16]
theorem check24 : checkAll source sdxlBlocks sdxlBlocksSpec never (SdxlSgm.diffuser15.map scalar) cert24 = true := by kernel_rfl
theorem mask24 : mask cert24 = 114688 := by kernel_rfl
theorem below24 : cert24.all (fun c => (positions c).all fun p => decide (p.2 < 128)) = true := by kernel_rfl

noncomputable def cert25 : List Cert := [.read 0 16, .read 0 16, .read 0 16, .read 0 16, .read 0 16, .read 0 16, .read 0 16, .read 0 16, .read 0 16, .read 0 16, .read 0 16, .read 0 16, .read 0 16, .read 0 16, .read 0 16, .read 0 16, .read 0 16, .read 0 16, .read 0 16, .read 0 16, .read 0 16, .read 0 16, .read 0 16, .read 0 16, .read 0 16, .read 0 16, .read 0 16, .read 0 16, .read 0 16, .read 0 16, .read 0 16, .read 0 16, .read 0 16, .read 0 16, .read 0 16, .read 0 16, .read 0 16, .read 0 16, .read 0 16, .read 0 16, .read 0 16, .read 0 16, .read 0 17, .read 0 17, .read 0 17, .read 0 17, .read 0 17, .read 0 17, .read 0 17, .read 0 17, .read 0 17, .read 0 17, .read 0 17, .read 0 17, .read 0 18, .read 0 18, .read 0 18, .read 0 18, .read 0 18, .read 0 18, .read 0 18, .read 0 18, .read 0 18, .read 0 18, .read 0 18, .read 0 18, .read 0 19, .read 0 19, .read 0 19, .read 0 19, .read 0 19, .read 0 19, .read 0 19, .read 0 19, .read 0 19, .read 0 19, .read 0 19, .read 0 19, .read 0 0, .read 0 0, .read 0 0, .read 0 0, .read 0 0, .read 0 0]
theorem check25 : checkAll source sdxlBlocks sdxlBlocksSpec never (SdxlSgm.diffuser16.map scalar) cert25 = true := by kernel_rfl
theorem mask25 : mask cert25 = 983041 := by kernel_rfl
theorem below25 : cert25.all (fun c => (positions c).all fun p => decide (p.2 < 128)) = true := by kernel_rfl

/-- All certificates -/
noncomputable def certs : List (List Cert) := [cert0, cert1, cert2, cert3, cert4, cert5, cert6, cert7, cert8, cert9, cert10, cert11, cert12, cert13, cert14, cert15, cert16, cert17, cert18, cert19, cert20, cert21, cert22, cert23, cert24, cert25]

theorem allGood : AllGood source sdxlBlocks sdxlBlocksSpec never target certs :=
  .cons check0 <| .cons check1 <| .cons check2 <| .cons check3 <| .cons check4 <| .cons check5 <| .cons check6 <| .cons check7 <| .cons check8 <| .cons check9 <| .cons check10 <| .cons check11 <| .cons check12 <| .cons check13 <| .cons check14 <| .cons check15 <| .cons check16 <| .cons check17 <| .cons check18 <| .cons check19 <| .cons check20 <| .cons check21 <| .cons check22 <| .cons check23 <| .cons check24 <| .cons check25 .nil

theorem masks : (certs.map mask).foldr Nat.lor 0 = 2097151 := by
  simp only [certs, List.map_cons, List.map_nil, List.foldr_cons, List.foldr_nil, mask0, mask1, mask2, mask3, mask4, mask5, mask6, mask7, mask8, mask9, mask10, mask11, mask12, mask13, mask14, mask15, mask16, mask17, mask18, mask19, mask20, mask21, mask22, mask23, mask24, mask25]
  kernel_rfl

theorem covers : covered never 2097151 source 0 = true := by kernel_rfl

theorem below : ∀ c ∈ certs.flatten, ∀ p ∈ positions c, p.2 < 128 := by
  intro c hc p hp
  simp only [certs, List.flatten_cons, List.flatten_nil, List.mem_append, List.not_mem_nil, or_false] at hc
  rcases hc with hc | hc | hc | hc | hc | hc | hc | hc | hc | hc | hc | hc | hc | hc | hc | hc | hc | hc | hc | hc | hc | hc | hc | hc | hc | hc
  · exact of_decide_eq_true (List.all_eq_true.1 (List.all_eq_true.1 below0 c hc) p hp)
  · exact of_decide_eq_true (List.all_eq_true.1 (List.all_eq_true.1 below1 c hc) p hp)
  · exact of_decide_eq_true (List.all_eq_true.1 (List.all_eq_true.1 below2 c hc) p hp)
  · exact of_decide_eq_true (List.all_eq_true.1 (List.all_eq_true.1 below3 c hc) p hp)
  · exact of_decide_eq_true (List.all_eq_true.1 (List.all_eq_true.1 below4 c hc) p hp)
  · exact of_decide_eq_true (List.all_eq_true.1 (List.all_eq_true.1 below5 c hc) p hp)
  · exact of_decide_eq_true (List.all_eq_true.1 (List.all_eq_true.1 below6 c hc) p hp)
  · exact of_decide_eq_true (List.all_eq_true.1 (List.all_eq_true.1 below7 c hc) p hp)
  · exact of_decide_eq_true (List.all_eq_true.1 (List.all_eq_true.1 below8 c hc) p hp)
  · exact of_decide_eq_true (List.all_eq_true.1 (List.all_eq_true.1 below9 c hc) p hp)
  · exact of_decide_eq_true (List.all_eq_true.1 (List.all_eq_true.1 below10 c hc) p hp)
  · exact of_decide_eq_true (List.all_eq_true.1 (List.all_eq_true.1 below11 c hc) p hp)
  · exact of_decide_eq_true (List.all_eq_true.1 (List.all_eq_true.1 below12 c hc) p hp)
  · exact of_decide_eq_true (List.all_eq_true.1 (List.all_eq_true.1 below13 c hc) p hp)
  · exact of_decide_eq_true (List.all_eq_true.1 (List.all_eq_true.1 below14 c hc) p hp)
  · exact of_decide_eq_true (List.all_eq_true.1 (List.all_eq_true.1 below15 c hc) p hp)
  · exact of_decide_eq_true (List.all_eq_true.1 (List.all_eq_true.1 below16 c hc) p hp)
  · exact of_decide_eq_true (List.all_eq_true.1 (List.all_eq_true.1 below17 c hc) p hp)
  · exact of_decide_eq_true (List.all_eq_true.1 (List.all_eq_true.1 below18 c hc) p hp)
  · exact of_decide_eq_true (List.all_eq_true.1 (List.all_eq_true.1 below19 c hc) p hp)
  · exact of_decide_eq_true (List.all_eq_true.1 (List.all_eq_true.1 below20 c hc) p hp)
  · exact of_decide_eq_true (List.all_eq_true.1 (List.all_eq_true.1 below21 c hc) p hp)
  · exact of_decide_eq_true (List.all_eq_true.1 (List.all_eq_true.1 below22 c hc) p hp)
  · exact of_decide_eq_true (List.all_eq_true.1 (List.all_eq_true.1 below23 c hc) p hp)
  · exact of_decide_eq_true (List.all_eq_true.1 (List.all_eq_true.1 below24 c hc) p hp)
  · exact of_decide_eq_true (List.all_eq_true.1 (List.all_eq_true.1 below25 c hc) p hp)

theorem source_eq : source.flatten = SdxlSupermergerBlocks.table.entries := by
  simp [source, Table.entries, SdxlSupermergerBlocks.table, SdxlSupermergerBlocks.blocks]

theorem target_eq : target.flatten = SdxlSgm.table.entries.map scalar := by
  simp [target, Table.entries, SdxlSgm.table, SdxlSgm.clip_l, SdxlSgm.clip_g, SdxlSgm.vae, SdxlSgm.diffuser]

end Verif.Data.CertSdxlBlocks
