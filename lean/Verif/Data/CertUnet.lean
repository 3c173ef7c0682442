import Verif.Data.SdxlSgm
import Verif.Data.SdxlDiffusersUnetOnly
import Verif.Proofs.ConvertLost

/-!
# Certificates for the conversion from `sdxl-diffusers_unet_only` to `sdxl-sgm`

Generated by tools/gen_certs.py, checked by the kernel.
-/
namespace Verif.Data.CertUnet
open Fast

/-- The chunks of the source -/
noncomputable def source : List (List Entry) := [SdxlDiffusersUnetOnly.diffuser0, SdxlDiffusersUnetOnly.diffuser1, SdxlDiffusersUnetOnly.diffuser2, SdxlDiffusersUnetOnly.diffuser3, SdxlDiffusersUnetOnly.diffuser4, SdxlDiffusersUnetOnly.diffuser5, SdxlDiffusersUnetOnly.diffuser6, SdxlDiffusersUnetOnly.diffuser7, SdxlDiffusersUnetOnly.diffuser8, SdxlDiffusersUnetOnly.diffuser9, SdxlDiffusersUnetOnly.diffuser10, SdxlDiffusersUnetOnly.diffuser11, SdxlDiffusersUnetOnly.diffuser12, SdxlDiffusersUnetOnly.diffuser13, SdxlDiffusersUnetOnly.diffuser14, SdxlDiffusersUnetOnly.diffuser15, SdxlDiffusersUnetOnly.diffuser16]
/-- The chunks of the target -/
noncomputable def target : List (List Entry) := [SdxlSgm.clip_l0, SdxlSgm.clip_l1, SdxlSgm.clip_g0, SdxlSgm.clip_g1, SdxlSgm.clip_g2, SdxlSgm.clip_g3, SdxlSgm.vae0, SdxlSgm.vae1, SdxlSgm.vae2, SdxlSgm.diffuser0, SdxlSgm.diffuser1, SdxlSgm.diffuser2, SdxlSgm.diffuser3, SdxlSgm.diffuser4, SdxlSgm.diffuser5, SdxlSgm.diffuser6, SdxlSgm.diffuser7, SdxlSgm.diffuser8, SdxlSgm.diffuser9, SdxlSgm.diffuser10, SdxlSgm.diffuser11, SdxlSgm.diffuser12, SdxlSgm.diffuser13, SdxlSgm.diffuser14, SdxlSgm.diffuser15, SdxlSgm.diffuser16]

noncomputable def cert0 : List Cert := [.lost, .lost, .lost, .lost, .lost, .lost, .lost, .lost, .lost, .lost, .lost, .lost, .lost, .lost, .lost, .lost, .lost, .lost, .lost, .lost, .lost, .lost, .lost, .lost, .lost, .lost, .lost, .lost, .lost, .lost, .lost, .lost, .lost, .lost, .lost, .lost, .lost, .lost, .lost, .lost, .lost, .lost, .lost, .lost, .lost, .lost, .lost, .lost, .lost, .lost, .lost, .lost, .lost, .lost, .lost, .lost, .lost, .lost, .lost, .lost, .lost, .lost, .lost, .lost, .lost, .lost, .lost, .lost, .lost, .lost, .lost, .lost, .lost, .lost, .lost, .lost, .lost, .lost, .lost, .lost, .lost, .lost, .lost, .lost, .lost, .lost, .lost, .lost, .lost, .lost, .lost, .lost, .lost, .lost, .lost, .lost, .lost, .lost, .lost, .lost]
theorem check0 : checkAll source sdxlDiffusers unetSpec unetLost SdxlSgm.clip_l0 cert0 = true := by kernel_rfl
theorem fresh0 : fresh cert0 0 0 = true := by kernel_rfl
theorem below0 : cert0.all (fun c => (positions c).all fun p => decide (p.2 < 128)) = true := by kernel_rfl

noncomputable def cert1 : List Cert := [.lost, .lost, .lost, .lost, .lost, .lost, .lost, .lost, .lost, .lost, .lost, .lost, .lost, .lost, .lost, .lost, .lost, .lost, .lost, .lost, .lost, .lost, .lost, .lost, .lost, .lost, .lost, .lost, .lost, .lost, .lost, .lost, .lost, .lost, .lost, .lost, .lost, .lost, .lost, .lost, .lost, .lost, .lost, .lost, .lost, .lost, .lost, .lost, .lost, .lost, .lost, .lost, .lost, .lost, .lost, .lost, .lost, .lost, .lost, .lost, .lost, .lost, .lost, .lost, .lost, .lost, .lost, .lost, .lost, .lost, .lost, .lost, .lost, .lost, .lost, .lost, .lost, .lost, .lost, .lost, .lost, .lost, .lost, .lost, .lost, .lost, .lost, .lost, .lost, .lost, .lost, .lost, .lost, .lost, .lost, .lost, .lost]
theorem check1 : checkAll source sdxlDiffusers unetSpec unetLost SdxlSgm.clip_l1 cert1 = true := by kernel_rfl
theorem fresh1 : fresh cert1 0 0 = true := by kernel_rfl
theorem below1 : cert1.all (fun c => (positions c).all fun p => decide (p.2 < 128)) = true := by kernel_rfl

noncomputable def cert2 : List Cert := [.lost, .lost, .lost, .lost, .lost, .lost, .lost, .lost, .lost, .lost, .lost, .lost, .lost, .lost, .lost, .lost, .lost, .lost, .lost, .lost, .lost, .lost, .lost, .lost, .lost, .lost, .lost, .lost, .lost, .lost, .lost, .lost, .lost, .lost, .lost, .lost, .lost, .lost, .lost, .lost, .lost, .lost, .lost, .lost, .lost, .lost, .lost, .lost, .lost, .lost, .lost, .lost, .lost, .lost, .lost, .lost, .lost, .lost, .lost, .lost, .lost, .lost, .lost, .lost, .lost, .lost, .lost, .lost, .lost, .lost, .lost, .lost, .lost, .lost, .lost, .lost, .lost, .lost, .lost, .lost, .lost, .lost, .lost, .lost, .lost, .lost, .lost, .lost, .lost, .lost, .lost, .lost, .lost, .lost, .lost, .lost, .lost, .lost, .lost, .lost]
theorem check2 : checkAll source sdxlDiffusers unetSpec unetLost SdxlSgm.clip_g0 cert2 = true := by kernel_rfl
theorem fresh2 : fresh cert2 0 0 = true := by kernel_rfl
theorem below2 : cert2.all (fun c => (positions c).all fun p => decide (p.2 < 128)) = true := by kernel_rfl

noncomputable def cert3 : List Cert := [.lost, .lost, .lost, .lost, .lost, .lost, .lost, .lost, .lost, .lost, .lost, .lost, .lost, .lost, .lost, .lost, .lost, .lost, .lost, .lost, .lost, .lost, .lost, .lost, .lost, .lost, .lost, .lost, .lost, .lost, .lost, .lost, .lost, .lost, .lost, .lost, .lost, .lost, .lost, .lost, .lost, .lost, .lost, .lost, .lost, .lost, .lost, .lost, .lost, .lost, .lost, .lost, .lost, .lost, .lost, .lost, .lost, .lost, .lost, .lost, .lost, .lost, .lost, .lost, .lost, .lost, .lost, .lost, .lost, .lost, .lost, .lost, .lost, .lost, .lost, .lost, .lost, .lost, .lost, .lost, .lost, .lost, .lost, .lost, .lost, .lost, .lost, .lost, .lost, .lost, .lost, .lost, .lost, .lost, .lost, .lost, .lost, .lost, .lost, .lost]
theorem check3 : checkAll source sdxlDiffusers unetSpec unetLost SdxlSgm.clip_g1 cert3 = true := by kernel_rfl
theorem fresh3 : fresh cert3 0 0 = true := by kernel_rfl
theorem below3 : cert3.all (fun c => (positions c).all fun p => decide (p.2 < 128)) = true := by kernel_rfl

noncomputable def cert4 : List Cert := [.lost, .lost, .lost, .lost, .lost, .lost, .lost, .lost, .lost, .lost, .lost, .lost, .lost, .lost, .lost, .lost, .lost, .lost, .lost, .lost, .lost, .lost, .lost, .lost, .lost, .lost, .lost, .lost, .lost, .lost, .lost, .lost, .lost, .lost, .lost, .lost, .lost, .lost, .lost, .lost, .lost, .lost, .lost, .lost, .lost, .lost, .lost, .lost, .lost, .lost, .lost, .lost, .lost, .lost, .lost, .lost, .lost, .lost, .lost, .lost, .lost, .lost, .lost, .lost, .lost, .lost, .lost, .lost, .lost, .lost, .lost, .lost, .lost, .lost, .lost, .lost, .lost, .lost, .lost, .lost, .lost, .lost, .lost, .lost, .lost, .lost, .lost, .lost, .lost, .lost, .lost, .lost, .lost, .lost, .lost, .lost, .lost, .lost, .lost, .lost]
theorem check4 : checkAll source sdxlDiffusers unetSpec unetLost SdxlSgm.clip_g2 cert4 = true := by kernel_rfl
theorem fresh4 : fresh cert4 0 0 = true := by kernel_rfl
theorem below4 : cert4.all (fun c => (positions c).all fun p => decide (p.2 < 128)) = true := by kernel_rfl

noncomputable def cert5 : List Cert := [.lost, .lost, .lost, .lost, .lost, .lost, .lost, .lost, .lost, .lost, .lost, .lost, .lost, .lost, .lost, .lost, .lost, .lost, .lost, .lost, .lost, .lost, .lost, .lost, .lost, .lost, .lost, .lost, .lost, .lost, .lost, .lost, .lost, .lost, .lost, .lost, .lost, .lost, .lost, .lost, .lost, .lost, .lost, .lost, .lost, .lost, .lost, .lost, .lost, .lost, .lost, .lost, .lost, .lost, .lost, .lost, .lost, .lost, .lost, .lost, .lost, .lost, .lost, .lost, .lost, .lost, .lost, .lost, .lost, .lost, .lost, .lost, .lost, .lost, .lost, .lost, .lost, .lost, .lost, .lost, .lost, .lost, .lost, .lost, .lost, .lost, .lost, .lost, .lost, .lost]
theorem check5 : checkAll source sdxlDiffusers unetSpec unetLost SdxlSgm.clip_g3 cert5 = true := by kernel_rfl
theorem fresh5 : fresh cert5 0 0 = true := by kernel_rfl
theorem below5 : cert5.all (fun c => (positions c).all fun p => decide (p.2 < 128)) = true := by kernel_rfl

noncomputable def cert6 : List Cert := [.lost, .lost, .lost, .lost, .lost, .lost, .lost, .lost, .lost, .lost, .lost, .lost, .lost, .lost, .lost, .lost, .lost, .lost, .lost, .lost, .lost, .lost, .lost, .lost, .lost, .lost, .lost, .lost, .lost, .lost, .lost, .lost, .lost, .lost, .lost, .lost, .lost, .lost, .lost, .lost, .lost, .lost, .lost, .lost, .lost, .lost, .lost, .lost, .lost, .lost, .lost, .lost, .lost, .lost, .lost, .lost, .lost, .lost, .lost, .lost, .lost, .lost, .lost, .lost, .lost, .lost, .lost, .lost, .lost, .lost, .lost, .lost, .lost, .lost, .lost, .lost, .lost, .lost, .lost, .lost, .lost, .lost, .lost, .lost, .lost, .lost, .lost, .lost, .lost, .lost, .lost, .lost, .lost, .lost, .lost, .lost, .lost, .lost, .lost, .lost]
theorem check6 : checkAll source sdxlDiffusers unetSpec unetLost SdxlSgm.vae0 cert6 = true := by kernel_rfl
theorem fresh6 : fresh cert6 0 0 = true := by kernel_rfl
theorem below6 : cert6.all (fun c => (positions c).all fun p => decide (p.2 < 128)) = true := by kernel_rfl

noncomputable def cert7 : List Cert := [.lost, .lost, .lost, .lost, .lost, .lost, .lost, .lost, .lost, .lost, .lost, .lost, .lost, .lost, .lost, .lost, .lost, .lost, .lost, .lost, .lost, .lost, .lost, .lost, .lost, .lost, .lost, .lost, .lost, .lost, .lost, .lost, .lost, .lost, .lost, .lost, .lost, .lost, .lost, .lost, .lost, .lost, .lost, .lost, .lost, .lost, .lost, .lost, .lost, .lost, .lost, .lost, .lost, .lost, .lost, .lost, .lost, .lost, .lost, .lost, .lost, .lost, .lost, .lost, .lost, .lost, .lost, .lost, .lost, .lost, .lost, .lost, .lost, .lost, .lost, .lost, .lost, .lost, .lost, .lost, .lost, .lost, .lost, .lost, .lost, .lost, .lost, .lost, .lost, .lost, .lost, .lost, .lost, .lost, .lost, .lost, .lost, .lost, .lost, .lost]
theorem check7 : checkAll source sdxlDiffusers unetSpec unetLost SdxlSgm.vae1 cert7 = true := by kernel_rfl
theorem fresh7 : fresh cert7 0 0 = true := by kernel_rfl
theorem below7 : cert7.all (fun c => (positions c).all fun p => decide (p.2 < 128)) = true := by kernel_rfl

noncomputable def cert8 : List Cert := [.lost, .lost, .lost, .lost, .lost, .lost, .lost, .lost, .lost, .lost, .lost, .lost, .lost, .lost, .lost, .lost, .lost, .lost, .lost, .lost, .lost, .lost, .lost, .lost, .lost, .lost, .lost, .lost, .lost, .lost, .lost, .lost, .lost, .lost, .lost, .lost, .lost, .lost, .lost, .lost, .lost, .lost, .lost, .lost, .lost, .lost, .lost, .lost]
theorem check8 : checkAll source sdxlDiffusers unetSpec unetLost SdxlSgm.vae2 cert8 = true := by kernel_rfl
theorem fresh8 : fresh cert8 0 0 = true := by kernel_rfl
theorem below8 : cert8.all (fun c => (positions c).all fun p => decide (p.2 < 128)) = true := by kernel_rfl

noncomputable def cert9 : List Cert := [.lost, .lost, .read 0 4, .read 0 5, .read 0 20, .read 0 21, .read 0 16, .read 0 17, .read 0 12, .read 0 13, .read 0 18, .read 0 19, .read 0 14, .read 0 15, .read 0 30, .read 0 31, .read 0 26, .read 0 27, .read 0 22, .read 0 23, .read 0 28, .read 0 29, .read 0 24, .read 0 25, .read 0 10, .read 0 11, .read 1 36, .read 1 37, .read 1 32, .read 1 33, .read 1 26, .read 1 27, .read 1 34, .read 1 35, .read 1 28, .read 1 29, .read 1 30, .read 1 31, .read 0 32, .read 0 33, .read 0 34, .read 0 35, .read 0 36, .read 0 37, .read 0 38, .read 0 39, .read 0 40, .read 0 41, .read 0 42, .read 0 43, .read 0 44, .read 0 45, .read 0 46, .read 0 47, .read 0 48, .read 0 49, .read 0 50, .read 0 51, .read 0 52, .read 0 53, .read 0 54, .read 0 55, .read 0 56, .read 0 57, .read 0 58, .read 0 59, .read 0 60, .read 0 61, .read 0 62, .read 0 63, .read 0 64, .read 0 65, .read 0 66, .read 0 67, .read 0 68, .read 0 69, .read 0 70, .read 0 71, .read 0 72, .read 0 73, .read 0 74, .read 0 75, .read 0 76, .read 0 77, .read 1 46, .read 1 47, .read 1 42, .read 1 43, .read 1 38, .read 1 39, .read 1 44, .read 1 45, .read 1 40, .read 1 41, .read 0 78, .read 0 79, .read 0 80, .read 0 81, .read 0 82, .read 0 83]
theorem check9 : checkAll source sdxlDiffusers unetSpec unetLost SdxlSgm.diffuser0 cert9 = true := by kernel_rfl
theorem fresh9 : fresh cert9 0 95780948468154970352038592283661625898083079807826992 = true := by kernel_rfl
theorem below9 : cert9.all (fun c => (positions c).all fun p => decide (p.2 < 128)) = true := by kernel_rfl

noncomputable def cert10 : List Cert := [.read 0 84, .read 0 85, .read 0 86, .read 0 87, .read 0 88, .read 0 89, .read 0 90, .read 0 91, .read 0 92, .read 0 93, .read 0 94, .read 0 95, .read 0 96, .read 0 97, .read 0 98, .read 0 99, .read 1 0, .read 1 1, .read 1 2, .read 1 3, .read 1 4, .read 1 5, .read 1 6, .read 1 7, .read 1 8, .read 1 9, .read 1 10, .read 1 11, .read 1 12, .read 1 13, .read 1 14, .read 1 15, .read 1 16, .read 1 17, .read 1 18, .read 1 19, .read 1 20, .read 1 21, .read 1 22, .read 1 23, .read 1 24, .read 1 25, .read 5 70, .read 5 71, .read 5 66, .read 5 67, .read 5 60, .read 5 61, .read 5 68, .read 5 69, .read 5 62, .read 5 63, .read 5 64, .read 5 65, .read 1 48, .read 1 49, .read 1 50, .read 1 51, .read 1 52, .read 1 53, .read 1 54, .read 1 55, .read 1 56, .read 1 57, .read 1 58, .read 1 59, .read 1 60, .read 1 61, .read 1 62, .read 1 63, .read 1 64, .read 1 65, .read 1 66, .read 1 67, .read 1 68, .read 1 69, .read 1 70, .read 1 71, .read 1 72, .read 1 73, .read 1 74, .read 1 75, .read 1 76, .read 1 77, .read 1 78, .read 1 79, .read 1 80, .read 1 81, .read 1 82, .read 1 83, .read 1 84, .read 1 85, .read 1 86, .read 1 87, .read 1 88, .read 1 89, .read 1 90, .read 1 91, .read 1 92, .read 1 93]
theorem check10 : checkAll source sdxlDiffusers unetSpec unetLost SdxlSgm.diffuser1 cert10 = true := by kernel_rfl
theorem fresh10 : fresh cert10 95780948468154970352038592283661625898083079807826992 21540256516840589512151853570394126885428641492560896954645460298066458171846545966555464466056724707774495257466049801534814575064502676819508401492559438747354300881937734401009488391292299769625943780198862289968 = true := by kernel_rfl
theorem below10 : cert10.all (fun c => (positions c).all fun p => decide (p.2 < 128)) = true := by kernel_rfl

noncomputable def cert11 : List Cert := [.read 1 94, .read 1 95, .read 1 96, .read 1 97, .read 1 98, .read 1 99, .read 2 0, .read 2 1, .read 2 2, .read 2 3, .read 2 4, .read 2 5, .read 2 6, .read 2 7, .read 2 8, .read 2 9, .read 2 10, .read 2 11, .read 2 12, .read 2 13, .read 2 14, .read 2 15, .read 2 16, .read 2 17, .read 2 18, .read 2 19, .read 2 20, .read 2 21, .read 2 22, .read 2 23, .read 2 24, .read 2 25, .read 2 26, .read 2 27, .read 2 28, .read 2 29, .read 2 30, .read 2 31, .read 2 32, .read 2 33, .read 2 34, .read 2 35, .read 2 36, .read 2 37, .read 2 38, .read 2 39, .read 2 40, .read 2 41, .read 2 42, .read 2 43, .read 2 44, .read 2 45, .read 2 46, .read 2 47, .read 2 48, .read 2 49, .read 2 50, .read 2 51, .read 2 52, .read 2 53, .read 2 54, .read 2 55, .read 2 56, .read 2 57, .read 2 58, .read 2 59, .read 2 60, .read 2 61, .read 2 62, .read 2 63, .read 2 64, .read 2 65, .read 2 66, .read 2 67, .read 2 68, .read 2 69, .read 2 70, .read 2 71, .read 2 72, .read 2 73, .read 2 74, .read 2 75, .read 2 76, .read 2 77, .read 2 78, .read 2 79, .read 2 80, .read 2 81, .read 2 82, .read 2 83, .read 2 84, .read 2 85, .read 2 86, .read 2 87, .read 2 88, .read 2 89, .read 2 90, .read 2 91, .read 2 92, .read 2 93]
theorem check11 : checkAll source sdxlDiffusers unetSpec unetLost SdxlSgm.diffuser2 cert11 = true := by kernel_rfl
theorem fresh11 : fresh cert11 21540256516840589512151853570394126885428641492560896954645460298066458171846545966555464466056724707774495257466049801534814575064502676819508401492559438747354300881937734401009488391292299769625943780198862289968 21540256516840589512151853570394126885428641492560896954645460298066458171846545966555464466056724707774495259759548417524886086675323572005803253476427392499687016376844153555221562923921568455200929459793280629808 = true := by kernel_rfl
theorem below11 : cert11.all (fun c => (positions c).all fun p => decide (p.2 < 128)) = true := by kernel_rfl

noncomputable def cert12 : List Cert := [.read 2 94, .read 2 95, .read 2 96, .read 2 97, .read 2 98, .read 2 99, .read 3 0, .read 3 1, .read 3 2, .read 3 3, .read 3 4, .read 3 5, .read 3 6, .read 3 7, .read 3 8, .read 3 9, .read 3 10, .read 3 11, .read 3 12, .read 3 13, .read 3 14, .read 3 15, .read 3 16, .read 3 17, .read 3 18, .read 3 19, .read 3 20, .read 3 21, .read 3 22, .read 3 23, .read 3 24, .read 3 25, .read 3 26, .read 3 27, .read 3 28, .read 3 29, .read 3 30, .read 3 31, .read 3 32, .read 3 33, .read 3 34, .read 3 35, .read 3 36, .read 3 37, .read 3 38, .read 3 39, .read 3 40, .read 3 41, .read 3 42, .read 3 43, .read 3 44, .read 3 45, .read 3 46, .read 3 47, .read 3 48, .read 3 49, .read 3 50, .read 3 51, .read 3 52, .read 3 53, .read 5 80, .read 5 81, .read 5 76, .read 5 77, .read 5 72, .read 5 73, .read 5 78, .read 5 79, .read 5 74, .read 5 75, .read 3 54, .read 3 55, .read 3 56, .read 3 57, .read 3 58, .read 3 59, .read 3 60, .read 3 61, .read 3 62, .read 3 63, .read 3 64, .read 3 65, .read 3 66, .read 3 67, .read 3 68, .read 3 69, .read 3 70, .read 3 71, .read 3 72, .read 3 73, .read 3 74, .read 3 75, .read 3 76, .read 3 77, .read 3 78, .read 3 79, .read 3 80, .read 3 81, .read 3 82, .read 3 83]
theorem check12 : checkAll source sdxlDiffusers unetSpec unetLost SdxlSgm.diffuser3 cert12 = true := by kernel_rfl
theorem fresh12 : fresh cert12 21540256516840589512151853570394126885428641492560896954645460298066458171846545966555464466056724707774495259759548417524886086675323572005803253476427392499687016376844153555221562923921568455200929459793280629808 22062603792272047646541405588733772302303786886000646588415218086583892480965471129075984884399562721468466313415378703142880145610569326455762653749871045735531966383344232190855089278536962510266199266797694792760368 = true := by kernel_rfl
theorem below12 : cert12.all (fun c => (positions c).all fun p => decide (p.2 < 128)) = true := by kernel_rfl

noncomputable def cert13 : List Cert := [.read 3 84, .read 3 85, .read 3 86, .read 3 87, .read 3 88, .read 3 89, .read 3 90, .read 3 91, .read 3 92, .read 3 93, .read 3 94, .read 3 95, .read 3 96, .read 3 97, .read 3 98, .read 3 99, .read 4 0, .read 4 1, .read 4 2, .read 4 3, .read 4 4, .read 4 5, .read 4 6, .read 4 7, .read 4 8, .read 4 9, .read 4 10, .read 4 11, .read 4 12, .read 4 13, .read 4 14, .read 4 15, .read 4 16, .read 4 17, .read 4 18, .read 4 19, .read 4 20, .read 4 21, .read 4 22, .read 4 23, .read 4 24, .read 4 25, .read 4 26, .read 4 27, .read 4 28, .read 4 29, .read 4 30, .read 4 31, .read 4 32, .read 4 33, .read 4 34, .read 4 35, .read 4 36, .read 4 37, .read 4 38, .read 4 39, .read 4 40, .read 4 41, .read 4 42, .read 4 43, .read 4 44, .read 4 45, .read 4 46, .read 4 47, .read 4 48, .read 4 49, .read 4 50, .read 4 51, .read 4 52, .read 4 53, .read 4 54, .read 4 55, .read 4 56, .read 4 57, .read 4 58, .read 4 59, .read 4 60, .read 4 61, .read 4 62, .read 4 63, .read 4 64, .read 4 65, .read 4 66, .read 4 67, .read 4 68, .read 4 69, .read 4 70, .read 4 71, .read 4 72, .read 4 73, .read 4 74, .read 4 75, .read 4 76, .read 4 77, .read 4 78, .read 4 79, .read 4 80, .read 4 81, .read 4 82, .read 4 83]
theorem check13 : checkAll source sdxlDiffusers unetSpec unetLost SdxlSgm.diffuser4 cert13 = true := by kernel_rfl
theorem fresh13 : fresh cert13 22062603792272047646541405588733772302303786886000646588415218086583892480965471129075984884399562721468466313415378703142880145610569326455762653749871045735531966383344232190855089278536962510266199266797694792760368 22062603792272047646541405588733772302563131609055708648322243564656782172908366578430820904258136206024247213271247963365414740972132913664079827955280174476576200544203913173821423922565356592135730073251878791019568 = true := by kernel_rfl
theorem below13 : cert13.all (fun c => (positions c).all fun p => decide (p.2 < 128)) = true := by kernel_rfl

noncomputable def cert14 : List Cert := [.read 4 84, .read 4 85, .read 4 86, .read 4 87, .read 4 88, .read 4 89, .read 4 90, .read 4 91, .read 4 92, .read 4 93, .read 4 94, .read 4 95, .read 4 96, .read 4 97, .read 4 98, .read 4 99, .read 5 0, .read 5 1, .read 5 2, .read 5 3, .read 5 4, .read 5 5, .read 5 6, .read 5 7, .read 5 8, .read 5 9, .read 5 10, .read 5 11, .read 5 12, .read 5 13, .read 5 14, .read 5 15, .read 5 16, .read 5 17, .read 5 18, .read 5 19, .read 5 20, .read 5 21, .read 5 22, .read 5 23, .read 5 24, .read 5 25, .read 5 26, .read 5 27, .read 5 28, .read 5 29, .read 5 30, .read 5 31, .read 5 32, .read 5 33, .read 5 34, .read 5 35, .read 5 36, .read 5 37, .read 5 38, .read 5 39, .read 5 40, .read 5 41, .read 5 42, .read 5 43, .read 5 44, .read 5 45, .read 5 46, .read 5 47, .read 5 48, .read 5 49, .read 5 50, .read 5 51, .read 5 52, .read 5 53, .read 5 54, .read 5 55, .read 5 56, .read 5 57, .read 5 58, .read 5 59, .read 0 0, .read 0 1, .read 0 2, .read 0 3, .read 7 96, .read 7 97, .read 7 92, .read 7 93, .read 7 88, .read 7 89, .read 7 94, .read 7 95, .read 7 90, .read 7 91, .read 5 82, .read 5 83, .read 5 84, .read 5 85, .read 5 86, .read 5 87, .read 5 88, .read 5 89, .read 5 90, .read 5 91]
theorem check14 : checkAll source sdxlDiffusers unetSpec unetLost SdxlSgm.diffuser5 cert14 = true := by kernel_rfl
theorem fresh14 : fresh cert14 22062603792272047646541405588733772302563131609055708648322243564656782172908366578430820904258136206024247213271247963365414740972132913664079827955280174476576200544203913173821423922565356592135730073251878791019568 167259720634697184651220523862973305084887256221734753481286109512766895340089386195404812599159296708674161784704509127276951536765164699866302945561352045934740644919143604885524494605304919842428329075266980523020593475410456502390704358670160432467726578650277550611317942181504577552239153904703 = true := by kernel_rfl
theorem below14 : cert14.all (fun c => (positions c).all fun p => decide (p.2 < 128)) = true := by kernel_rfl

noncomputable def cert15 : List Cert := [.read 5 92, .read 5 93, .read 5 94, .read 5 95, .read 5 96, .read 5 97, .read 5 98, .read 5 99, .read 6 0, .read 6 1, .read 6 2, .read 6 3, .read 6 4, .read 6 5, .read 6 6, .read 6 7, .read 6 8, .read 6 9, .read 6 10, .read 6 11, .read 6 12, .read 6 13, .read 6 14, .read 6 15, .read 6 16, .read 6 17, .read 6 18, .read 6 19, .read 6 20, .read 6 21, .read 6 22, .read 6 23, .read 6 24, .read 6 25, .read 6 26, .read 6 27, .read 6 28, .read 6 29, .read 6 30, .read 6 31, .read 6 32, .read 6 33, .read 6 34, .read 6 35, .read 6 36, .read 6 37, .read 6 38, .read 6 39, .read 6 40, .read 6 41, .read 6 42, .read 6 43, .read 6 44, .read 6 45, .read 6 46, .read 6 47, .read 6 48, .read 6 49, .read 6 50, .read 6 51, .read 6 52, .read 6 53, .read 6 54, .read 6 55, .read 6 56, .read 6 57, .read 6 58, .read 6 59, .read 6 60, .read 6 61, .read 6 62, .read 6 63, .read 6 64, .read 6 65, .read 6 66, .read 6 67, .read 6 68, .read 6 69, .read 6 70, .read 6 71, .read 6 72, .read 6 73, .read 6 74, .read 6 75, .read 6 76, .read 6 77, .read 6 78, .read 6 79, .read 6 80, .read 6 81, .read 6 82, .read 6 83, .read 6 84, .read 6 85, .read 6 86, .read 6 87, .read 6 88, .read 6 89, .read 6 90, .read 6 91]
theorem check15 : checkAll source sdxlDiffusers unetSpec unetLost SdxlSgm.diffuser6 cert15 = true := by kernel_rfl
theorem fresh15 : fresh cert15 167259720634697184651220523862973305084887256221734753481286109512766895340089386195404812599159296708674161784704509127276951536765164699866302945561352045934740644919143604885524494605304919842428329075266980523020593475410456502390704358670160432467726578650277550611317942181504577552239153904703 167259720634697184651220523862973305084894943918967449494321599978245544301028829716769223074986168557133143274248751285914927850920839048186565383404603150859442024315265679845748038913683646878287466466850661237517903170002051902374017992073582840357245183900519159856610817690711040495341497482303 = true := by kernel_rfl
theorem below15 : cert15.all (fun c => (positions c).all fun p => decide (p.2 < 128)) = true := by kernel_rfl

noncomputable def cert16 : List Cert := [.read 6 92, .read 6 93, .read 6 94, .read 6 95, .read 6 96, .read 6 97, .read 6 98, .read 6 99, .read 7 0, .read 7 1, .read 7 2, .read 7 3, .read 7 4, .read 7 5, .read 7 6, .read 7 7, .read 7 8, .read 7 9, .read 7 10, .read 7 11, .read 7 12, .read 7 13, .read 7 14, .read 7 15, .read 7 16, .read 7 17, .read 7 18, .read 7 19, .read 7 20, .read 7 21, .read 7 22, .read 7 23, .read 7 24, .read 7 25, .read 7 26, .read 7 27, .read 7 28, .read 7 29, .read 7 30, .read 7 31, .read 7 32, .read 7 33, .read 7 34, .read 7 35, .read 7 36, .read 7 37, .read 7 38, .read 7 39, .read 7 40, .read 7 41, .read 7 42, .read 7 43, .read 7 44, .read 7 45, .read 7 46, .read 7 47, .read 7 48, .read 7 49, .read 7 50, .read 7 51, .read 7 52, .read 7 53, .read 7 54, .read 7 55, .read 7 56, .read 7 57, .read 7 58, .read 7 59, .read 7 60, .read 7 61, .read 7 62, .read 7 63, .read 7 64, .read 7 65, .read 7 66, .read 7 67, .read 7 68, .read 7 69, .read 7 70, .read 7 71, .read 7 72, .read 7 73, .read 7 74, .read 7 75, .read 7 76, .read 7 77, .read 7 78, .read 7 79, .read 7 80, .read 7 81, .read 7 82, .read 7 83, .read 7 84, .read 7 85, .read 7 86, .read 7 87, .read 8 6, .read 8 7, .read 8 2, .read 8 3]
theorem check16 : checkAll source sdxlDiffusers unetSpec unetLost SdxlSgm.diffuser7 cert16 = true := by kernel_rfl
theorem fresh16 : fresh cert16 167259720634697184651220523862973305084894943918967449494321599978245544301028829716769223074986168557133143274248751285914927850920839048186565383404603150859442024315265679845748038913683646878287466466850661237517903170002051902374017992073582840357245183900519159856610817690711040495341497482303 36672939951358667737550680160994295979721827358794105970853944021892720905061475009597329714167115360794493215953889840664044056900957875624740345837005891806233596845761571934195180934220619769067286716670929214682676118436951578604342839371561814077015252989238900184586958243564819625386799466681644181617727 = true := by kernel_rfl
theorem below16 : cert16.all (fun c => (positions c).all fun p => decide (p.2 < 128)) = true := by kernel_rfl

noncomputable def cert17 : List Cert := [.read 7 98, .read 7 99, .read 8 4, .read 8 5, .read 8 0, .read 8 1, .read 0 6, .read 0 7, .read 0 8, .read 0 9, .read 14 40, .read 14 41, .read 14 36, .read 14 37, .read 14 30, .read 14 31, .read 14 38, .read 14 39, .read 14 32, .read 14 33, .read 14 34, .read 14 35, .read 8 12, .read 8 13, .read 8 14, .read 8 15, .read 8 16, .read 8 17, .read 8 18, .read 8 19, .read 8 20, .read 8 21, .read 8 22, .read 8 23, .read 8 24, .read 8 25, .read 8 26, .read 8 27, .read 8 28, .read 8 29, .read 8 30, .read 8 31, .read 8 32, .read 8 33, .read 8 34, .read 8 35, .read 8 36, .read 8 37, .read 8 38, .read 8 39, .read 8 40, .read 8 41, .read 8 42, .read 8 43, .read 8 44, .read 8 45, .read 8 46, .read 8 47, .read 8 48, .read 8 49, .read 8 50, .read 8 51, .read 8 52, .read 8 53, .read 8 54, .read 8 55, .read 8 56, .read 8 57, .read 8 58, .read 8 59, .read 8 60, .read 8 61, .read 8 62, .read 8 63, .read 8 64, .read 8 65, .read 8 66, .read 8 67, .read 8 68, .read 8 69, .read 8 70, .read 8 71, .read 8 72, .read 8 73, .read 8 74, .read 8 75, .read 8 76, .read 8 77, .read 8 78, .read 8 79, .read 8 80, .read 8 81, .read 8 82, .read 8 83, .read 8 84, .read 8 85, .read 8 86, .read 8 87, .read 8 88, .read 8 89]
theorem check17 : checkAll source sdxlDiffusers unetSpec unetLost SdxlSgm.diffuser8 cert17 = true := by kernel_rfl
theorem fresh17 : fresh cert17 36672939951358667737550680160994295979721827358794105970853944021892720905061475009597329714167115360794493215953889840664044056900957875624740345837005891806233596845761571934195180934220619769067286716670929214682676118436951578604342839371561814077015252989238900184586958243564819625386799466681644181617727 1227173605866828792272933001192689011434247171894149354974951801910738307562968189555712022904975114073046961698211370089688494377250949578599881354373898971570646850158571189131426122917263680321476998446511086680383173648661681032844257166252835993081599874672340266193851774079562752800119230624726434492654462677186927135526455710017830073523336964873977735256050144717155639529883554226523885332624458778169692483927687632799873286714436136996686345683737851250303837162053115687310756842075896610221192103684466884284673977122151043207731016105983 = true := by kernel_rfl
theorem below17 : cert17.all (fun c => (positions c).all fun p => decide (p.2 < 128)) = true := by kernel_rfl

noncomputable def cert18 : List Cert := [.read 8 90, .read 8 91, .read 8 92, .read 8 93, .read 8 94, .read 8 95, .read 8 96, .read 8 97, .read 8 98, .read 8 99, .read 9 0, .read 9 1, .read 9 2, .read 9 3, .read 9 4, .read 9 5, .read 9 6, .read 9 7, .read 9 8, .read 9 9, .read 9 10, .read 9 11, .read 9 12, .read 9 13, .read 9 14, .read 9 15, .read 9 16, .read 9 17, .read 9 18, .read 9 19, .read 9 20, .read 9 21, .read 9 22, .read 9 23, .read 9 24, .read 9 25, .read 9 26, .read 9 27, .read 9 28, .read 9 29, .read 9 30, .read 9 31, .read 9 32, .read 9 33, .read 9 34, .read 9 35, .read 9 36, .read 9 37, .read 9 38, .read 9 39, .read 9 40, .read 9 41, .read 9 42, .read 9 43, .read 9 44, .read 9 45, .read 9 46, .read 9 47, .read 9 48, .read 9 49, .read 9 50, .read 9 51, .read 9 52, .read 9 53, .read 9 54, .read 9 55, .read 9 56, .read 9 57, .read 9 58, .read 9 59, .read 9 60, .read 9 61, .read 9 62, .read 9 63, .read 9 64, .read 9 65, .read 9 66, .read 9 67, .read 9 68, .read 9 69, .read 9 70, .read 9 71, .read 9 72, .read 9 73, .read 9 74, .read 9 75, .read 9 76, .read 9 77, .read 9 78, .read 9 79, .read 9 80, .read 9 81, .read 9 82, .read 9 83, .read 9 84, .read 9 85, .read 9 86, .read 9 87, .read 9 88, .read 9 89]
theorem check18 : checkAll source sdxlDiffusers unetSpec unetLost SdxlSgm.diffuser9 cert18 = true := by kernel_rfl
theorem fresh18 : fresh cert18 1227173605866828792272933001192689011434247171894149354974951801910738307562968189555712022904975114073046961698211370089688494377250949578599881354373898971570646850158571189131426122917263680321476998446511086680383173648661681032844257166252835993081599874672340266193851774079562752800119230624726434492654462677186927135526455710017830073523336964873977735256050144717155639529883554226523885332624458778169692483927687632799873286714436136996686345683737851250303837162053115687310756842075896610221192103684466884284673977122151043207731016105983 1227173605866828792272933001192689011434247171894149354974951801910738307562968189555712022904975114073046961698211370089688494377250949578599881354373898971570646850158571189131501850590763353570516369888553236872359291673608742884367527915405565522335539790047541509611022661461233978055197180558551119051339140118450261159598863731632482895527626352209045007275399295436039618577947295478747909080837349513838172460710990347665597129353495571966350710093159762632207199957637315580056158110762543243108977587987272976796930379116057145958277446631423 = true := by kernel_rfl
theorem below18 : cert18.all (fun c => (positions c).all fun p => decide (p.2 < 128)) = true := by kernel_rfl

noncomputable def cert19 : List Cert := [.read 9 90, .read 9 91, .read 9 92, .read 9 93, .read 9 94, .read 9 95, .read 9 96, .read 9 97, .read 9 98, .read 9 99, .read 10 0, .read 10 1, .read 10 2, .read 10 3, .read 10 4, .read 10 5, .read 10 6, .read 10 7, .read 10 8, .read 10 9, .read 10 10, .read 10 11, .read 10 12, .read 10 13, .read 10 14, .read 10 15, .read 10 16, .read 10 17, .read 14 52, .read 14 53, .read 14 48, .read 14 49, .read 14 42, .read 14 43, .read 14 50, .read 14 51, .read 14 44, .read 14 45, .read 14 46, .read 14 47, .read 10 18, .read 10 19, .read 10 20, .read 10 21, .read 10 22, .read 10 23, .read 10 24, .read 10 25, .read 10 26, .read 10 27, .read 10 28, .read 10 29, .read 10 30, .read 10 31, .read 10 32, .read 10 33, .read 10 34, .read 10 35, .read 10 36, .read 10 37, .read 10 38, .read 10 39, .read 10 40, .read 10 41, .read 10 42, .read 10 43, .read 10 44, .read 10 45, .read 10 46, .read 10 47, .read 10 48, .read 10 49, .read 10 50, .read 10 51, .read 10 52, .read 10 53, .read 10 54, .read 10 55, .read 10 56, .read 10 57, .read 10 58, .read 10 59, .read 10 60, .read 10 61, .read 10 62, .read 10 63, .read 10 64, .read 10 65, .read 10 66, .read 10 67, .read 10 68, .read 10 69, .read 10 70, .read 10 71, .read 10 72, .read 10 73, .read 10 74, .read 10 75, .read 10 76, .read 10 77]
theorem check19 : checkAll source sdxlDiffusers unetSpec unetLost SdxlSgm.diffuser10 cert19 = true := by kernel_rfl
theorem fresh19 : fresh cert19 1227173605866828792272933001192689011434247171894149354974951801910738307562968189555712022904975114073046961698211370089688494377250949578599881354373898971570646850158571189131501850590763353570516369888553236872359291673608742884367527915405565522335539790047541509611022661461233978055197180558551119051339140118450261159598863731632482895527626352209045007275399295436039618577947295478747909080837349513838172460710990347665597129353495571966350710093159762632207199957637315580056158110762543243108977587987272976796930379116057145958277446631423 5027730263236397561942206505886446879846110663250329907332377532428294846085480672609752157841683042357273402077571983257453761463597140423523713915161073065989012577831514345987066391528243134932345763995859142435223355055460971964027400800747283949768736771466374756892383049675698794564642743483029996774253862342870846641247220223876792567983785430726218096300488689590314659307177356860135513305738215684828192309199165772082214334328098046166797773250204440273141577185060558625308010381336087265901935942989097073801711017502291982959810948695588863 = true := by kernel_rfl
theorem below19 : cert19.all (fun c => (positions c).all fun p => decide (p.2 < 128)) = true := by kernel_rfl

noncomputable def cert20 : List Cert := [.read 10 78, .read 10 79, .read 10 80, .read 10 81, .read 10 82, .read 10 83, .read 10 84, .read 10 85, .read 10 86, .read 10 87, .read 10 88, .read 10 89, .read 10 90, .read 10 91, .read 10 92, .read 10 93, .read 10 94, .read 10 95, .read 10 96, .read 10 97, .read 10 98, .read 10 99, .read 11 0, .read 11 1, .read 11 2, .read 11 3, .read 11 4, .read 11 5, .read 11 6, .read 11 7, .read 11 8, .read 11 9, .read 11 10, .read 11 11, .read 11 12, .read 11 13, .read 11 14, .read 11 15, .read 11 16, .read 11 17, .read 11 18, .read 11 19, .read 11 20, .read 11 21, .read 11 22, .read 11 23, .read 11 24, .read 11 25, .read 11 26, .read 11 27, .read 11 28, .read 11 29, .read 11 30, .read 11 31, .read 11 32, .read 11 33, .read 11 34, .read 11 35, .read 11 36, .read 11 37, .read 11 38, .read 11 39, .read 11 40, .read 11 41, .read 11 42, .read 11 43, .read 11 44, .read 11 45, .read 11 46, .read 11 47, .read 11 48, .read 11 49, .read 11 50, .read 11 51, .read 11 52, .read 11 53, .read 11 54, .read 11 55, .read 11 56, .read 11 57, .read 11 58, .read 11 59, .read 11 60, .read 11 61, .read 11 62, .read 11 63, .read 11 64, .read 11 65, .read 11 66, .read 11 67, .read 11 68, .read 11 69, .read 11 70, .read 11 71, .read 11 72, .read 11 73, .read 11 74, .read 11 75, .read 11 76, .read 11 77]
theorem check20 : checkAll source sdxlDiffusers unetSpec unetLost SdxlSgm.diffuser11 cert20 = true := by kernel_rfl
theorem fresh20 : fresh cert20 5027730263236397561942206505886446879846110663250329907332377532428294846085480672609752157841683042357273402077571983257453761463597140423523713915161073065989012577831514345987066391528243134932345763995859142435223355055460971964027400800747283949768736771466374756892383049675698794564642743483029996774253862342870846641247220223876792567983785430726218096300488689590314659307177356860135513305738215684828192309199165772082214334328098046166797773250204440273141577185060558625308010381336087265901935942989097073801711017502291982959810948695588863 5027730263236397561942206505886446879846110663250329907332377532428294846085480672609752157841683042357273404218359465583750071743594205118307156591899561609659436153306594391305756121129470979716874157113773667094140100207847189567327565697141298249718108565743284573856378456838736777563619476504535726037633688597649160321748286051283901111412147513632425907379435049575699373653389983329709373790504609833435110126076675391135974713927166608144568216667312514119389968045470287708822996717332713920071225371587094927214426650466644269876741940973666303 = true := by kernel_rfl
theorem below20 : cert20.all (fun c => (positions c).all fun p => decide (p.2 < 128)) = true := by kernel_rfl

noncomputable def cert21 : List Cert := [.read 11 78, .read 11 79, .read 11 80, .read 11 81, .read 11 82, .read 11 83, .read 11 84, .read 11 85, .read 11 86, .read 11 87, .read 11 88, .read 11 89, .read 11 90, .read 11 91, .read 11 92, .read 11 93, .read 11 94, .read 11 95, .read 11 96, .read 11 97, .read 11 98, .read 11 99, .read 12 0, .read 12 1, .read 12 2, .read 12 3, .read 12 4, .read 12 5, .read 12 6, .read 12 7, .read 12 8, .read 12 9, .read 12 10, .read 12 11, .read 12 12, .read 12 13, .read 12 14, .read 12 15, .read 12 16, .read 12 17, .read 12 18, .read 12 19, .read 12 20, .read 12 21, .read 12 22, .read 12 23, .read 14 64, .read 14 65, .read 14 60, .read 14 61, .read 14 54, .read 14 55, .read 14 62, .read 14 63, .read 14 56, .read 14 57, .read 14 58, .read 14 59, .lost, .lost, .lost, .lost, .lost, .lost, .lost, .lost, .lost, .lost, .lost, .lost, .lost, .lost, .lost, .lost, .lost, .lost, .lost, .lost, .lost, .lost, .lost, .lost, .lost, .lost, .lost, .lost, .lost, .lost, .lost, .lost, .lost, .lost, .lost, .lost, .lost, .lost, .lost, .lost, .lost, .lost]
theorem check21 : checkAll source sdxlDiffusers unetSpec unetLost SdxlSgm.diffuser12 cert21 = true := by kernel_rfl
theorem fresh21 : fresh cert21 5027730263236397561942206505886446879846110663250329907332377532428294846085480672609752157841683042357273404218359465583750071743594205118307156591899561609659436153306594391305756121129470979716874157113773667094140100207847189567327565697141298249718108565743284573856378456838736777563619476504535726037633688597649160321748286051283901111412147513632425907379435049575699373653389983329709373790504609833435110126076675391135974713927166608144568216667312514119389968045470287708822996717332713920071225371587094927214426650466644269876741940973666303 20593584385389890280544070121043887612538680710920523194582773347778097600304436397977734434669886450096466667685357837155142049166370610075209335485652372795846039941182701391668583295751269160533340794133723047013454410021146641507072488824101754690762909408630891437245487790528447118210866779980660235021769423910793410964594810912700622861680973299076789234165924385498558269357336029362157731264574658901256994713162936293025049365192473395453057146030799218644492739049084238730458954787221514050059479893344626040259029195504029728416084371893037039615 = true := by kernel_rfl
theorem below21 : cert21.all (fun c => (positions c).all fun p => decide (p.2 < 128)) = true := by kernel_rfl

noncomputable def cert22 : List Cert := [.lost, .lost, .lost, .lost, .lost, .lost, .lost, .lost, .lost, .lost, .lost, .lost, .lost, .lost, .lost, .lost, .lost, .lost, .lost, .lost, .lost, .lost, .lost, .lost, .lost, .lost, .lost, .lost, .lost, .lost, .lost, .lost, .lost, .lost, .lost, .lost, .lost, .lost, .lost, .lost, .lost, .lost, .lost, .lost, .lost, .lost, .lost, .lost, .lost, .lost, .lost, .lost, .lost, .lost, .lost, .lost, .lost, .lost, .lost, .lost, .lost, .lost, .lost, .lost, .lost, .lost, .lost, .lost, .lost, .lost, .lost, .lost, .lost, .lost, .lost, .lost, .lost, .lost, .lost, .lost, .lost, .lost, .lost, .lost, .lost, .lost, .lost, .lost, .lost, .lost, .lost, .lost, .lost, .lost, .lost, .lost, .lost, .lost, .lost, .lost]
theorem check22 : checkAll source sdxlDiffusers unetSpec unetLost SdxlSgm.diffuser13 cert22 = true := by kernel_rfl
theorem fresh22 : fresh cert22 20593584385389890280544070121043887612538680710920523194582773347778097600304436397977734434669886450096466667685357837155142049166370610075209335485652372795846039941182701391668583295751269160533340794133723047013454410021146641507072488824101754690762909408630891437245487790528447118210866779980660235021769423910793410964594810912700622861680973299076789234165924385498558269357336029362157731264574658901256994713162936293025049365192473395453057146030799218644492739049084238730458954787221514050059479893344626040259029195504029728416084371893037039615 20593584385389890280544070121043887612538680710920523194582773347778097600304436397977734434669886450096466667685357837155142049166370610075209335485652372795846039941182701391668583295751269160533340794133723047013454410021146641507072488824101754690762909408630891437245487790528447118210866779980660235021769423910793410964594810912700622861680973299076789234165924385498558269357336029362157731264574658901256994713162936293025049365192473395453057146030799218644492739049084238730458954787221514050059479893344626040259029195504029728416084371893037039615 = true := by kernel_rfl
theorem below22 : cert22.all (fun c => (positions c).all fun p => decide (p.2 < 128)) = true := by kernel_rfl

noncomputable def cert23 : List Cert := [.lost, .lost, .lost, .lost, .lost, .lost, .lost, .lost, .lost, .lost, .lost, .lost, .lost, .lost, .lost, .lost, .lost, .lost, .lost, .lost, .lost, .lost, .lost, .lost, .lost, .lost, .lost, .lost, .lost, .lost, .lost, .lost, .lost, .lost, .lost, .lost, .lost, .lost, .lost, .lost, .lost, .lost, .lost, .lost, .lost, .lost, .lost, .lost, .lost, .lost, .lost, .lost, .lost, .lost, .lost, .lost, .lost, .lost, .lost, .lost, .lost, .lost, .lost, .lost, .lost, .lost, .read 16 16, .read 16 17, .read 16 12, .read 16 13, .read 16 6, .read 16 7, .read 16 14, .read 16 15, .read 16 8, .read 16 9, .read 16 10, .read 16 11, .read 14 68, .read 14 69, .read 14 70, .read 14 71, .read 14 72, .read 14 73, .read 14 74, .read 14 75, .read 14 76, .read 14 77, .read 14 78, .read 14 79, .read 14 80, .read 14 81, .read 14 82, .read 14 83, .read 14 84, .read 14 85, .read 14 86, .read 14 87, .read 14 88, .read 14 89]
theorem check23 : checkAll source sdxlDiffusers unetSpec unetLost SdxlSgm.diffuser14 cert23 = true := by kernel_rfl
theorem fresh23 : fresh cert23 20593584385389890280544070121043887612538680710920523194582773347778097600304436397977734434669886450096466667685357837155142049166370610075209335485652372795846039941182701391668583295751269160533340794133723047013454410021146641507072488824101754690762909408630891437245487790528447118210866779980660235021769423910793410964594810912700622861680973299076789234165924385498558269357336029362157731264574658901256994713162936293025049365192473395453057146030799218644492739049084238730458954787221514050059479893344626040259029195504029728416084371893037039615 8469640951169188793371354882566621009793190427679034055486223881317849625442022580472432377720824267185469103770633721329817521385105275080629858837324457972815332187176649616144649523815970995394332477241604357775067438996609117713416025864121635484571969128097869778053226564113644841885010699144918862517612600155978793980983428268098599864494022909576335524164224734310136175790655751243489939439884406828845335685485039316487529284883928674863955414242235884905303904409449366579778507915310231494185255205506437042559035356116054040361062495331582115407883942803207204849077212907371762563429182579697018244981325823 = true := by kernel_rfl
theorem below23 : cert23.all (fun c => (positions c).all fun p => decide (p.2 < 128)) = true := by kernel_rfl

noncomputable def cert24 : List Cert := [.read 14 90, .read 14 91, .read 14 92, .read 14 93, .read 14 94, .read 14 95, .read 14 96, .read 14 97, .read 14 98, .read 14 99, .read 15 0, .read 15 1, .read 15 2, .read 15 3, .read 15 4, .read 15 5, .read 15 6, .read 15 7, .read 15 8, .read 15 9, .read 15 10, .read 15 11, .read 15 12, .read 15 13, .read 16 28, .read 16 29, .read 16 24, .read 16 25, .read 16 18, .read 16 19, .read 16 26, .read 16 27, .read 16 20, .read 16 21, .read 16 22, .read 16 23, .read 15 14, .read 15 15, .read 15 16, .read 15 17, .read 15 18, .read 15 19, .read 15 20, .read 15 21, .read 15 22, .read 15 23, .read 15 24, .read 15 25, .read 15 26, .read 15 27, .read 15 28, .read 15 29, .read 15 30, .read 15 31, .read 15 32, .read 15 33, .read 15 34, .read 15 35, .read 15 36, .read 15 37, .read 15 38, .read 15 39, .read 15 40, .read 15 41, .read 15 42, .read 15 43, .read 15 44, .read 15 45, .read 15 46, .read 15 47, .read 15 48, .read 15 49, .read 15 50, .read 15 51, .read 15 52, .read 15 53, .read 15 54, .read 15 55, .read 15 56, .read 15 57, .read 15 58, .read 15 59, .read 16 40, .read 16 41, .read 16 36, .read 16 37, .read 16 30, .read 16 31, .read 16 38, .read 16 39, .read 16 32, .read 16 33, .read 16 34, .read 16 35, .read 15 60, .read 15 61, .read 15 62, .read 15 63, .read 15 64, .read 15 65]
theorem check24 : checkAll source sdxlDiffusers unetSpec unetLost SdxlSgm.diffuser15 cert24 = true := by kernel_rfl
theorem fresh24 : fresh cert24 8469640951169188793371354882566621009793190427679034055486223881317849625442022580472432377720824267185469103770633721329817521385105275080629858837324457972815332187176649616144649523815970995394332477241604357775067438996609117713416025864121635484571969128097869778053226564113644841885010699144918862517612600155978793980983428268098599864494022909576335524164224734310136175790655751243489939439884406828845335685485039316487529284883928674863955414242235884905303904409449366579778507915310231494185255205506437042559035356116054040361062495331582115407883942803207204849077212907371762563429182579697018244981325823 142131695799187873097657031518435718151353742361634521084412276722369896494655645713832729649017310870313268594463397827495243512263136342501330264629672542872654273901347146914362996767539722384788373863210701495836127402982345773824178598685010597964229378044701998677059419863437084325662303133252762329187740181204043868925900507852784478184391199454660470817050783340088371905380801215503569195080892201095874196944940347259537756932819338831550015740401164906019859812143918300746519755711822704857353557075526379007602192920577087548730685538365234327531330602837638345542129962798576493436904390191816461518120284757950463 = true := by kernel_rfl
theorem below24 : cert24.all (fun c => (positions c).all fun p => decide (p.2 < 128)) = true := by kernel_rfl

noncomputable def cert25 : List Cert := [.read 15 66, .read 15 67, .read 15 68, .read 15 69, .read 15 70, .read 15 71, .read 15 72, .read 15 73, .read 15 74, .read 15 75, .read 15 76, .read 15 77, .read 15 78, .read 15 79, .read 15 80, .read 15 81, .read 15 82, .read 15 83, .read 15 84, .read 15 85, .read 15 86, .read 15 87, .read 15 88, .read 15 89, .read 15 90, .read 15 91, .read 15 92, .read 15 93, .read 15 94, .read 15 95, .read 15 96, .read 15 97, .read 15 98, .read 15 99, .read 16 0, .read 16 1, .read 16 2, .read 16 3, .read 16 4, .read 16 5, .read 16 42, .read 16 43, .read 16 54, .read 16 55, .read 16 50, .read 16 51, .read 16 44, .read 16 45, .read 16 52, .read 16 53, .read 16 46, .read 16 47, .read 16 48, .read 16 49, .read 16 66, .read 16 67, .read 16 62, .read 16 63, .read 16 56, .read 16 57, .read 16 64, .read 16 65, .read 16 58, .read 16 59, .read 16 60, .read 16 61, .read 16 78, .read 16 79, .read 16 74, .read 16 75, .read 16 68, .read 16 69, .read 16 76, .read 16 77, .read 16 70, .read 16 71, .read 16 72, .read 16 73, .read 8 8, .read 8 9, .read 8 10, .read 8 11, .lost, .lost]
theorem check25 : checkAll source sdxlDiffusers unetSpec unetLost SdxlSgm.diffuser16 cert25 = true := by kernel_rfl
theorem fresh25 : fresh cert25 142131695799187873097657031518435718151353742361634521084412276722369896494655645713832729649017310870313268594463397827495243512263136342501330264629672542872654273901347146914362996767539722384788373863210701495836127402982345773824178598685010597964229378044701998677059419863437084325662303133252762329187740181204043868925900507852784478184391199454660470817050783340088371905380801215503569195080892201095874196944940347259537756932819338831550015740401164906019859812143918300746519755711822704857353557075526379007602192920577087548730685538365234327531330602837638345542129962798576493436904390191816461518120284757950463 39068863052250606675316042863088854933951130991066021049980312843123207454878848909907507365931517562914306203850649197641283550611442125700326645941286430566648419852706132554176389304104215225067730894668160035175663768958579410051609390914349762937131584565805211707302335496579604503186730476027734068118164945943963041781297934333727744229349827439502037041671306675212062236304296126822311972746535655091197017271284674346522238498712292471861003108731850347864572119880535084811015427630917683237447769918605566081880781429902776454313093662492828725133106198049768937995099173940067164947340500589608178271193352193820451643406155775 = true := by kernel_rfl
theorem below25 : cert25.all (fun c => (positions c).all fun p => decide (p.2 < 128)) = true := by kernel_rfl

/-- All certificates -/
noncomputable def certs : List (List Cert) := [cert0, cert1, cert2, cert3, cert4, cert5, cert6, cert7, cert8, cert9, cert10, cert11, cert12, cert13, cert14, cert15, cert16, cert17, cert18, cert19, cert20, cert21, cert22, cert23, cert24, cert25]

theorem allGood : AllGood source sdxlDiffusers unetSpec unetLost target certs :=
  .cons check0 <| .cons check1 <| .cons check2 <| .cons check3 <| .cons check4 <| .cons check5 <| .cons check6 <| .cons check7 <| .cons check8 <| .cons check9 <| .cons check10 <| .cons check11 <| .cons check12 <| .cons check13 <| .cons check14 <| .cons check15 <| .cons check16 <| .cons check17 <| .cons check18 <| .cons check19 <| .cons check20 <| .cons check21 <| .cons check22 <| .cons check23 <| .cons check24 <| .cons check25 .nil

theorem allFresh : Fresh certs 0 39068863052250606675316042863088854933951130991066021049980312843123207454878848909907507365931517562914306203850649197641283550611442125700326645941286430566648419852706132554176389304104215225067730894668160035175663768958579410051609390914349762937131584565805211707302335496579604503186730476027734068118164945943963041781297934333727744229349827439502037041671306675212062236304296126822311972746535655091197017271284674346522238498712292471861003108731850347864572119880535084811015427630917683237447769918605566081880781429902776454313093662492828725133106198049768937995099173940067164947340500589608178271193352193820451643406155775 :=
  .cons fresh0 <| .cons fresh1 <| .cons fresh2 <| .cons fresh3 <| .cons fresh4 <| .cons fresh5 <| .cons fresh6 <| .cons fresh7 <| .cons fresh8 <| .cons fresh9 <| .cons fresh10 <| .cons fresh11 <| .cons fresh12 <| .cons fresh13 <| .cons fresh14 <| .cons fresh15 <| .cons fresh16 <| .cons fresh17 <| .cons fresh18 <| .cons fresh19 <| .cons fresh20 <| .cons fresh21 <| .cons fresh22 <| .cons fresh23 <| .cons fresh24 <| .cons fresh25 (.nil _)

theorem increasing0 : increasing (key% "down_blocks.1.attentions.1.transformer_blocks.0.norm1.weight") SdxlDiffusersUnetOnly.diffuser0 (key% "") = true := by kernel_rfl
theorem increasing1 : increasing (key% "down_blocks.2.attentions.0.transformer_blocks.2.attn2.to_k.weight") SdxlDiffusersUnetOnly.diffuser1 (key% "down_blocks.1.attentions.1.transformer_blocks.0.norm1.weight") = true := by kernel_rfl
theorem increasing2 : increasing (key% "down_blocks.2.attentions.0.transformer_blocks.7.attn2.to_k.weight") SdxlDiffusersUnetOnly.diffuser2 (key% "down_blocks.2.attentions.0.transformer_blocks.2.attn2.to_k.weight") = true := by kernel_rfl
theorem increasing3 : increasing (key% "down_blocks.2.attentions.1.transformer_blocks.1.norm3.weight") SdxlDiffusersUnetOnly.diffuser3 (key% "down_blocks.2.attentions.0.transformer_blocks.7.attn2.to_k.weight") = true := by kernel_rfl
theorem increasing4 : increasing (key% "down_blocks.2.attentions.1.transformer_blocks.6.norm3.weight") SdxlDiffusersUnetOnly.diffuser4 (key% "down_blocks.2.attentions.1.transformer_blocks.1.norm3.weight") = true := by kernel_rfl
theorem increasing5 : increasing (key% "mid_block.attentions.0.transformer_blocks.0.ff.net.0.proj.weight") SdxlDiffusersUnetOnly.diffuser5 (key% "down_blocks.2.attentions.1.transformer_blocks.6.norm3.weight") = true := by kernel_rfl
theorem increasing6 : increasing (key% "mid_block.attentions.0.transformer_blocks.5.ff.net.0.proj.weight") SdxlDiffusersUnetOnly.diffuser6 (key% "mid_block.attentions.0.transformer_blocks.0.ff.net.0.proj.weight") = true := by kernel_rfl
theorem increasing7 : increasing (key% "mid_block.resnets.1.conv1.weight") SdxlDiffusersUnetOnly.diffuser7 (key% "mid_block.attentions.0.transformer_blocks.5.ff.net.0.proj.weight") = true := by kernel_rfl
theorem increasing8 : increasing (key% "up_blocks.0.attentions.0.transformer_blocks.4.attn1.to_out.0.bias") SdxlDiffusersUnetOnly.diffuser8 (key% "mid_block.resnets.1.conv1.weight") = true := by kernel_rfl
theorem increasing9 : increasing (key% "up_blocks.0.attentions.0.transformer_blocks.9.attn1.to_out.0.bias") SdxlDiffusersUnetOnly.diffuser9 (key% "up_blocks.0.attentions.0.transformer_blocks.4.attn1.to_out.0.bias") = true := by kernel_rfl
theorem increasing10 : increasing (key% "up_blocks.0.attentions.1.transformer_blocks.3.norm1.weight") SdxlDiffusersUnetOnly.diffuser10 (key% "up_blocks.0.attentions.0.transformer_blocks.9.attn1.to_out.0.bias") = true := by kernel_rfl
theorem increasing11 : increasing (key% "up_blocks.0.attentions.1.transformer_blocks.8.norm1.weight") SdxlDiffusersUnetOnly.diffuser11 (key% "up_blocks.0.attentions.1.transformer_blocks.3.norm1.weight") = true := by kernel_rfl
theorem increasing12 : increasing (key% "up_blocks.0.attentions.2.transformer_blocks.3.attn2.to_v.weight") SdxlDiffusersUnetOnly.diffuser12 (key% "up_blocks.0.attentions.1.transformer_blocks.8.norm1.weight") = true := by kernel_rfl
theorem increasing13 : increasing (key% "up_blocks.0.attentions.2.transformer_blocks.8.attn2.to_v.weight") SdxlDiffusersUnetOnly.diffuser13 (key% "up_blocks.0.attentions.2.transformer_blocks.3.attn2.to_v.weight") = true := by kernel_rfl
theorem increasing14 : increasing (key% "up_blocks.1.attentions.0.transformer_blocks.1.attn2.to_k.weight") SdxlDiffusersUnetOnly.diffuser14 (key% "up_blocks.0.attentions.2.transformer_blocks.8.attn2.to_v.weight") = true := by kernel_rfl
theorem increasing15 : increasing (key% "up_blocks.1.attentions.2.transformer_blocks.1.ff.net.2.weight") SdxlDiffusersUnetOnly.diffuser15 (key% "up_blocks.1.attentions.0.transformer_blocks.1.attn2.to_k.weight") = true := by kernel_rfl
theorem increasing16 : increasing (key% "up_blocks.2.resnets.2.time_emb_proj.weight") SdxlDiffusersUnetOnly.diffuser16 (key% "up_blocks.1.attentions.2.transformer_blocks.1.ff.net.2.weight") = true := by kernel_rfl
theorem nodup : (source.flatten.map (·.key)).Nodup :=
  Increasing.nodup (.cons increasing0 <| .cons increasing1 <| .cons increasing2 <| .cons increasing3 <| .cons increasing4 <| .cons increasing5 <| .cons increasing6 <| .cons increasing7 <| .cons increasing8 <| .cons increasing9 <| .cons increasing10 <| .cons increasing11 <| .cons increasing12 <| .cons increasing13 <| .cons increasing14 <| .cons increasing15 <| .cons increasing16 (.nil _))

theorem covers : covered unetUnused 39068863052250606675316042863088854933951130991066021049980312843123207454878848909907507365931517562914306203850649197641283550611442125700326645941286430566648419852706132554176389304104215225067730894668160035175663768958579410051609390914349762937131584565805211707302335496579604503186730476027734068118164945943963041781297934333727744229349827439502037041671306675212062236304296126822311972746535655091197017271284674346522238498712292471861003108731850347864572119880535084811015427630917683237447769918605566081880781429902776454313093662492828725133106198049768937995099173940067164947340500589608178271193352193820451643406155775 source 0 = true := by kernel_rfl

theorem below : ∀ c ∈ certs.flatten, ∀ p ∈ positions c, p.2 < 128 := by
  intro c hc p hp
  simp only [certs, List.flatten_cons, List.flatten_nil, List.mem_append, List.not_mem_nil, or_false] at hc
  rcases hc with hc | hc | hc | hc | hc | hc | hc | hc | hc | hc | hc | hc | hc | hc | hc | hc | hc | hc | hc | hc | hc | hc | hc | hc | hc | hc
  · exact of_decide_eq_true (List.all_eq_true.1 (List.all_eq_true.1 below0 c hc) p hp)
  · exact of_decide_eq_true (List.all_eq_true.1 (List.all_eq_true.1 below1 c hc) p hp)
  · exact of_decide_eq_true (List.all_eq_true.1 (List.all_eq_true.1 below2 c hc) p hp)
  · exact of_decide_eq_true (List.all_eq_true.1 (List.all_eq_true.1 below3 c hc) p hp)
  · exact of_decide_eq_true (List.all_eq_true.1 (List.all_eq_true.1 below4 c hc) p hp)
  · exact of_decide_eq_true (List.all_eq_true.1 (List.all_eq_true.1 below5 c hc) p hp)
  · exact of_decide_eq_true (List.all_eq_true.1 (List.all_eq_true.1 below6 c hc) p hp)
  · exact of_decide_eq_true (List.all_eq_true.1 (List.all_eq_true.1 below7 c hc) p hp)
  · exact of_decide_eq_true (List.all_eq_true.1 (List.all_eq_true.1 below8 c hc) p hp)
  · exact of_decide_eq_true (List.all_eq_true.1 (List.all_eq_true.1 below9 c hc) p hp)
  · exact of_decide_eq_true (List.all_eq_true.1 (List.all_eq_true.1 below10 c hc) p hp)
  · exact of_decide_eq_true (List.all_eq_true.1 (List.all_eq_true.1 below11 c hc) p hp)
  · exact of_decide_eq_true (List.all_eq_true.1 (List.all_eq_true.1 below12 c hc) p hp)
  · exact of_decide_eq_true (List.all_eq_true.1 (List.all_eq_true.1 below13 c hc) p hp)
  · exact of_decide_eq_true (List.all_eq_true.1 (List.all_eq_true.1 below14 c hc) p hp)
  · exact of_decide_eq_true (List.all_eq_true.1 (List.all_eq_true.1 below15 c hc) p hp)
  · exact of_decide_eq_true (List.all_eq_true.1 (List.all_eq_true.1 below16 c hc) p hp)
  · exact of_decide_eq_true (List.all_eq_true.1 (List.all_eq_true.1 below17 c hc) p hp)
  · exact of_decide_eq_true (List.all_eq_true.1 (List.all_eq_true.1 below18 c hc) p hp)
  · exact of_decide_eq_true (List.all_eq_true.1 (List.all_eq_true.1 below19 c hc) p hp)
  · exact of_decide_eq_true (List.all_eq_true.1 (List.all_eq_true.1 below20 c hc) p hp)
  · exact of_decide_eq_true (List.all_eq_true.1 (List.all_eq_true.1 below21 c hc) p hp)
  · exact of_decide_eq_true (List.all_eq_true.1 (List.all_eq_true.1 below22 c hc) p hp)
  · exact of_decide_eq_true (List.all_eq_true.1 (List.all_eq_true.1 below23 c hc) p hp)
  · exact of_decide_eq_true (List.all_eq_true.1 (List.all_eq_true.1 below24 c hc) p hp)
  · exact of_decide_eq_true (List.all_eq_true.1 (List.all_eq_true.1 below25 c hc) p hp)

theorem source_eq : source.flatten = SdxlDiffusersUnetOnly.table.entries := by
  simp [source, Table.entries, SdxlDiffusersUnetOnly.table, SdxlDiffusersUnetOnly.diffuser]

theorem target_eq : target.flatten = SdxlSgm.table.entries := by
  simp [target, Table.entries, SdxlSgm.table, SdxlSgm.clip_l, SdxlSgm.clip_g, SdxlSgm.vae, SdxlSgm.diffuser]

end Verif.Data.CertUnet
