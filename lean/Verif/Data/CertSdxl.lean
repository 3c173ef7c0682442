import Verif.Data.SdxlSgm
import Verif.Data.SdxlKohya
import Verif.Proofs.ConvertLost

/-!
# Certificates for the conversion from `sdxl-kohya` to `sdxl-sgm`

Generated by tools/gen_certs.py, checked by the kernel.
-/
namespace Verif.Data.CertSdxl
open Fast

/-- The chunks of the source -/
noncomputable def source : List (List Entry) := [SdxlKohya.vae0, SdxlKohya.vae1, SdxlKohya.vae2, SdxlKohya.clip_l0, SdxlKohya.clip_l1, SdxlKohya.clip_g0, SdxlKohya.clip_g1, SdxlKohya.clip_g2, SdxlKohya.clip_g3, SdxlKohya.clip_g4, SdxlKohya.clip_g5, SdxlKohya.diffuser0, SdxlKohya.diffuser1, SdxlKohya.diffuser2, SdxlKohya.diffuser3, SdxlKohya.diffuser4, SdxlKohya.diffuser5, SdxlKohya.diffuser6, SdxlKohya.diffuser7, SdxlKohya.diffuser8, SdxlKohya.diffuser9, SdxlKohya.diffuser10, SdxlKohya.diffuser11, SdxlKohya.diffuser12, SdxlKohya.diffuser13, SdxlKohya.diffuser14, SdxlKohya.diffuser15, SdxlKohya.diffuser16]
/-- The chunks of the target -/
noncomputable def target : List (List Entry) := [SdxlSgm.clip_l0, SdxlSgm.clip_l1, SdxlSgm.clip_g0, SdxlSgm.clip_g1, SdxlSgm.clip_g2, SdxlSgm.clip_g3, SdxlSgm.vae0, SdxlSgm.vae1, SdxlSgm.vae2, SdxlSgm.diffuser0, SdxlSgm.diffuser1, SdxlSgm.diffuser2, SdxlSgm.diffuser3, SdxlSgm.diffuser4, SdxlSgm.diffuser5, SdxlSgm.diffuser6, SdxlSgm.diffuser7, SdxlSgm.diffuser8, SdxlSgm.diffuser9, SdxlSgm.diffuser10, SdxlSgm.diffuser11, SdxlSgm.diffuser12, SdxlSgm.diffuser13, SdxlSgm.diffuser14, SdxlSgm.diffuser15, SdxlSgm.diffuser16]

noncomputable def cert0 : List Cert := [.read 3 0, .read 3 1, .read 3 2, .read 3 3, .read 3 4, .read 3 5, .read 3 6, .read 3 7, .read 3 8, .read 3 9, .read 3 10, .read 3 11, .read 3 12, .read 3 13, .read 3 14, .read 3 15, .read 3 16, .read 3 17, .read 3 18, .read 3 19, .read 3 20, .read 3 21, .read 3 22, .read 3 23, .read 3 24, .read 3 25, .read 3 26, .read 3 27, .read 3 28, .read 3 29, .read 3 30, .read 3 31, .read 3 32, .read 3 33, .read 3 34, .read 3 35, .read 3 36, .read 3 37, .read 3 38, .read 3 39, .read 3 40, .read 3 41, .read 3 42, .read 3 43, .read 3 44, .read 3 45, .read 3 46, .read 3 47, .read 3 48, .read 3 49, .read 3 50, .read 3 51, .read 3 52, .read 3 53, .read 3 54, .read 3 55, .read 3 56, .read 3 57, .read 3 58, .read 3 59, .read 3 60, .read 3 61, .read 3 62, .read 3 63, .read 3 64, .read 3 65, .read 3 66, .read 3 67, .read 3 68, .read 3 69, .read 3 70, .read 3 71, .read 3 72, .read 3 73, .read 3 74, .read 3 75, .read 3 76, .read 3 77, .read 3 78, .read 3 79, .read 3 80, .read 3 81, .read 3 82, .read 3 83, .read 3 84, .read 3 85, .read 3 86, .read 3 87, .read 3 88, .read 3 89, .read 3 90, .read 3 91, .read 3 92, .read 3 93, .read 3 94, .read 3 95, .read 3 96, .read 3 97, .read 3 98, .read 3 99]
theorem check0 : checkAll source sdxl Convert.Spec.sdxlKohya sdxlLost SdxlSgm.clip_l0 cert0 = true := by kernel_rfl
theorem fresh0 : fresh cert0 0 49947976805055875702105555676651258885781175803427259373646367740200868081845784475256949355611625816785733687331091700072282695227805936910336000 = true := by kernel_rfl
theorem below0 : cert0.all (fun c => (positions c).all fun p => decide (p.2 < 128)) = true := by kernel_rfl

noncomputable def cert1 : List Cert := [.read 4 0, .read 4 1, .read 4 2, .read 4 3, .read 4 4, .read 4 5, .read 4 6, .read 4 7, .read 4 8, .read 4 9, .read 4 10, .read 4 11, .read 4 12, .read 4 13, .read 4 14, .read 4 15, .read 4 16, .read 4 17, .read 4 18, .read 4 19, .read 4 20, .read 4 21, .read 4 22, .read 4 23, .read 4 24, .read 4 25, .read 4 26, .read 4 27, .read 4 28, .read 4 29, .read 4 30, .read 4 31, .read 4 32, .read 4 33, .read 4 34, .read 4 35, .read 4 36, .read 4 37, .read 4 38, .read 4 39, .read 4 40, .read 4 41, .read 4 42, .read 4 43, .read 4 44, .read 4 45, .read 4 46, .read 4 47, .read 4 48, .read 4 49, .read 4 50, .read 4 51, .read 4 52, .read 4 53, .read 4 54, .read 4 55, .read 4 56, .read 4 57, .read 4 58, .read 4 59, .read 4 60, .read 4 61, .read 4 62, .read 4 63, .read 4 64, .read 4 65, .read 4 66, .read 4 67, .read 4 68, .read 4 69, .read 4 70, .read 4 71, .read 4 72, .read 4 73, .read 4 74, .read 4 75, .read 4 76, .read 4 77, .read 4 78, .read 4 79, .read 4 80, .read 4 81, .read 4 82, .read 4 83, .read 4 84, .read 4 85, .read 4 86, .read 4 87, .read 4 88, .read 4 89, .read 4 90, .read 4 91, .read 4 92, .read 4 93, .read 4 94, .read 4 95, .read 4 96]
theorem check1 : checkAll source sdxl Convert.Spec.sdxlKohya sdxlLost SdxlSgm.clip_l1 cert1 = true := by kernel_rfl
theorem fresh1 : fresh cert1 49947976805055875702105555676651258885781175803427259373646367740200868081845784475256949355611625816785733687331091700072282695227805936910336000 2124551971267068394758352826196466701438377850613609543501676262350786132508597753382353706990841746385684639050029914238476363278532422916237327551543687225035661208622945164031164416 = true := by kernel_rfl
theorem below1 : cert1.all (fun c => (positions c).all fun p => decide (p.2 < 128)) = true := by kernel_rfl

noncomputable def cert2 : List Cert := [.read 10 14, .read 10 15, .lost, .read 5 0, .transposed 10 16, .read 5 1, .rows 5 14 5 10 5 16, .stacked 5 15 5 11 5 17, .read 5 12, .read 5 13, .read 5 2, .read 5 3, .read 5 4, .read 5 5, .read 5 6, .read 5 7, .read 5 8, .read 5 9, .rows 5 30 5 26 5 32, .stacked 5 31 5 27 5 33, .read 5 28, .read 5 29, .read 5 18, .read 5 19, .read 5 20, .read 5 21, .read 5 22, .read 5 23, .read 5 24, .read 5 25, .rows 5 46 5 42 5 48, .stacked 5 47 5 43 5 49, .read 5 44, .read 5 45, .read 5 34, .read 5 35, .read 5 36, .read 5 37, .read 5 38, .read 5 39, .read 5 40, .read 5 41, .rows 5 62 5 58 5 64, .stacked 5 63 5 59 5 65, .read 5 60, .read 5 61, .read 5 50, .read 5 51, .read 5 52, .read 5 53, .read 5 54, .read 5 55, .read 5 56, .read 5 57, .rows 5 78 5 74 5 80, .stacked 5 79 5 75 5 81, .read 5 76, .read 5 77, .read 5 66, .read 5 67, .read 5 68, .read 5 69, .read 5 70, .read 5 71, .read 5 72, .read 5 73, .rows 5 94 5 90 5 96, .stacked 5 95 5 91 5 97, .read 5 92, .read 5 93, .read 5 82, .read 5 83, .read 5 84, .read 5 85, .read 5 86, .read 5 87, .read 5 88, .read 5 89, .rows 6 10 6 6 6 12, .stacked 6 11 6 7 6 13, .read 6 8, .read 6 9, .read 5 98, .read 5 99, .read 6 0, .read 6 1, .read 6 2, .read 6 3, .read 6 4, .read 6 5, .rows 6 26 6 22 6 28, .stacked 6 27 6 23 6 29, .read 6 24, .read 6 25, .read 6 14, .read 6 15, .read 6 16, .read 6 17, .read 6 18, .read 6 19]
theorem check2 : checkAll source sdxl Convert.Spec.sdxlKohya sdxlLost SdxlSgm.clip_g0 cert2 = true := by kernel_rfl
theorem fresh2 : fresh cert2 2124551971267068394758352826196466701438377850613609543501676262350786132508597753382353706990841746385684639050029914238476363278532422916237327551543687225035661208622945164031164416 2387329855083341203815683925329464484505414393229047681424876714486178002295636691716855434186793592222415300122377160443156396891775443086769499217585503247123519118903147492303087186235312707273901294022260175918630587214953809958700588222742597181832959232970726415776055203389138715529111536695059814681844332396959407533970584500311742260999196918409737123849165655780746666580140621824 = true := by kernel_rfl
theorem below2 : cert2.all (fun c => (positions c).all fun p => decide (p.2 < 128)) = true := by kernel_rfl

noncomputable def cert3 : List Cert := [.read 6 20, .read 6 21, .rows 6 42 6 38 6 44, .stacked 6 43 6 39 6 45, .read 6 40, .read 6 41, .read 6 30, .read 6 31, .read 6 32, .read 6 33, .read 6 34, .read 6 35, .read 6 36, .read 6 37, .rows 6 58 6 54 6 60, .stacked 6 59 6 55 6 61, .read 6 56, .read 6 57, .read 6 46, .read 6 47, .read 6 48, .read 6 49, .read 6 50, .read 6 51, .read 6 52, .read 6 53, .rows 6 74 6 70 6 76, .stacked 6 75 6 71 6 77, .read 6 72, .read 6 73, .read 6 62, .read 6 63, .read 6 64, .read 6 65, .read 6 66, .read 6 67, .read 6 68, .read 6 69, .rows 6 90 6 86 6 92, .stacked 6 91 6 87 6 93, .read 6 88, .read 6 89, .read 6 78, .read 6 79, .read 6 80, .read 6 81, .read 6 82, .read 6 83, .read 6 84, .read 6 85, .rows 7 6 7 2 7 8, .stacked 7 7 7 3 7 9, .read 7 4, .read 7 5, .read 6 94, .read 6 95, .read 6 96, .read 6 97, .read 6 98, .read 6 99, .read 7 0, .read 7 1, .rows 7 22 7 18 7 24, .stacked 7 23 7 19 7 25, .read 7 20, .read 7 21, .read 7 10, .read 7 11, .read 7 12, .read 7 13, .read 7 14, .read 7 15, .read 7 16, .read 7 17, .rows 7 38 7 34 7 40, .stacked 7 39 7 35 7 41, .read 7 36, .read 7 37, .read 7 26, .read 7 27, .read 7 28, .read 7 29, .read 7 30, .read 7 31, .read 7 32, .read 7 33, .rows 7 54 7 50 7 56, .stacked 7 55 7 51 7 57, .read 7 52, .read 7 53, .read 7 42, .read 7 43, .read 7 44, .read 7 45, .read 7 46, .read 7 47, .read 7 48, .read 7 49, .rows 7 70 7 66 7 72, .stacked 7 71 7 67 7 73]
theorem check3 : checkAll source sdxl Convert.Spec.sdxlKohya sdxlLost SdxlSgm.clip_g1 cert3 = true := by kernel_rfl
theorem fresh3 : fresh cert3 2387329855083341203815683925329464484505414393229047681424876714486178002295636691716855434186793592222415300122377160443156396891775443086769499217585503247123519118903147492303087186235312707273901294022260175918630587214953809958700588222742597181832959232970726415776055203389138715529111536695059814681844332396959407533970584500311742260999196918409737123849165655780746666580140621824 2387329855083341203815683925329464484505414393229047681424876714486178002295636691716855434186793601695012789734604391531746304977101416321037285396750121791940051366254812810707232504478351288880591975627570863899428999483358347166267541778554470630319367706049175381303099463188858726439494044340553650920266923846442135020886831817165586976905087865253650532175300344002266865874264653824 = true := by kernel_rfl
theorem below3 : cert3.all (fun c => (positions c).all fun p => decide (p.2 < 128)) = true := by kernel_rfl

noncomputable def cert4 : List Cert := [.read 7 68, .read 7 69, .read 7 58, .read 7 59, .read 7 60, .read 7 61, .read 7 62, .read 7 63, .read 7 64, .read 7 65, .rows 7 86 7 82 7 88, .stacked 7 87 7 83 7 89, .read 7 84, .read 7 85, .read 7 74, .read 7 75, .read 7 76, .read 7 77, .read 7 78, .read 7 79, .read 7 80, .read 7 81, .rows 8 2 7 98 8 4, .stacked 8 3 7 99 8 5, .read 8 0, .read 8 1, .read 7 90, .read 7 91, .read 7 92, .read 7 93, .read 7 94, .read 7 95, .read 7 96, .read 7 97, .rows 8 18 8 14 8 20, .stacked 8 19 8 15 8 21, .read 8 16, .read 8 17, .read 8 6, .read 8 7, .read 8 8, .read 8 9, .read 8 10, .read 8 11, .read 8 12, .read 8 13, .rows 8 34 8 30 8 36, .stacked 8 35 8 31 8 37, .read 8 32, .read 8 33, .read 8 22, .read 8 23, .read 8 24, .read 8 25, .read 8 26, .read 8 27, .read 8 28, .read 8 29, .rows 8 50 8 46 8 52, .stacked 8 51 8 47 8 53, .read 8 48, .read 8 49, .read 8 38, .read 8 39, .read 8 40, .read 8 41, .read 8 42, .read 8 43, .read 8 44, .read 8 45, .rows 8 66 8 62 8 68, .stacked 8 67 8 63 8 69, .read 8 64, .read 8 65, .read 8 54, .read 8 55, .read 8 56, .read 8 57, .read 8 58, .read 8 59, .read 8 60, .read 8 61, .rows 8 82 8 78 8 84, .stacked 8 83 8 79 8 85, .read 8 80, .read 8 81, .read 8 70, .read 8 71, .read 8 72, .read 8 73, .read 8 74, .read 8 75, .read 8 76, .read 8 77, .rows 8 98 8 94 9 0, .stacked 8 99 8 95 9 1, .read 8 96, .read 8 97, .read 8 86, .read 8 87]
theorem check4 : checkAll source sdxl Convert.Spec.sdxlKohya sdxlLost SdxlSgm.clip_g2 cert4 = true := by kernel_rfl
theorem fresh4 : fresh cert4 2387329855083341203815683925329464484505414393229047681424876714486178002295636691716855434186793601695012789734604391531746304977101416321037285396750121791940051366254812810707232504478351288880591975627570863899428999483358347166267541778554470630319367706049175381303099463188858726439494044340553650920266923846442135020886831817165586976905087865253650532175300344002266865874264653824 2387329855083341203815683925329464484505414576746030384345701085780210570265285520011450077391854475844822073196875486401794019498885109300153467587570015589943734253409531347986251944329201798423025079181319171479707160076939290614013821669905163709596009002181684330193169658803562523504448561606711136766335279899454114735344147166688761731190894802001740621499127841374284491696262610944 = true := by kernel_rfl
theorem below4 : cert4.all (fun c => (positions c).all fun p => decide (p.2 < 128)) = true := by kernel_rfl

noncomputable def cert5 : List Cert := [.read 8 88, .read 8 89, .read 8 90, .read 8 91, .read 8 92, .read 8 93, .rows 9 14 9 10 9 16, .stacked 9 15 9 11 9 17, .read 9 12, .read 9 13, .read 9 2, .read 9 3, .read 9 4, .read 9 5, .read 9 6, .read 9 7, .read 9 8, .read 9 9, .rows 9 30 9 26 9 32, .stacked 9 31 9 27 9 33, .read 9 28, .read 9 29, .read 9 18, .read 9 19, .read 9 20, .read 9 21, .read 9 22, .read 9 23, .read 9 24, .read 9 25, .rows 9 46 9 42 9 48, .stacked 9 47 9 43 9 49, .read 9 44, .read 9 45, .read 9 34, .read 9 35, .read 9 36, .read 9 37, .read 9 38, .read 9 39, .read 9 40, .read 9 41, .rows 9 62 9 58 9 64, .stacked 9 63 9 59 9 65, .read 9 60, .read 9 61, .read 9 50, .read 9 51, .read 9 52, .read 9 53, .read 9 54, .read 9 55, .read 9 56, .read 9 57, .rows 9 78 9 74 9 80, .stacked 9 79 9 75 9 81, .read 9 76, .read 9 77, .read 9 66, .read 9 67, .read 9 68, .read 9 69, .read 9 70, .read 9 71, .read 9 72, .read 9 73, .rows 9 94 9 90 9 96, .stacked 9 95 9 91 9 97, .read 9 92, .read 9 93, .read 9 82, .read 9 83, .read 9 84, .read 9 85, .read 9 86, .read 9 87, .read 9 88, .read 9 89, .rows 10 10 10 6 10 12, .stacked 10 11 10 7 10 13, .read 10 8, .read 10 9, .read 9 98, .read 9 99, .read 10 0, .read 10 1, .read 10 2, .read 10 3, .read 10 4, .read 10 5]
theorem check5 : checkAll source sdxl Convert.Spec.sdxlKohya sdxlLost SdxlSgm.clip_g3 cert5 = true := by kernel_rfl
theorem fresh5 : fresh cert5 2387329855083341203815683925329464484505414576746030384345701085780210570265285520011450077391854475844822073196875486401794019498885109300153467587570015589943734253409531347986251944329201798423025079181319171479707160076939290614013821669905163709596009002181684330193169658803562523504448561606711136766335279899454114735344147166688761731190894802001740621499127841374284491696262610944 2728356161373792449271710015302892427620395817110364360344515836382997157691196508365952007283764901131318390671558385958078489770275789770297260855174545985550632803649225441087184799703434595695875648429326516034756194456408014751566267931737401473861871179688104653180889789175824656586474333084225658805260417556065438253638655692465716743912401656873266177202921956864733716058485030912 = true := by kernel_rfl
theorem below5 : cert5.all (fun c => (positions c).all fun p => decide (p.2 < 128)) = true := by kernel_rfl

noncomputable def cert6 : List Cert := [.lost, .lost, .lost, .lost, .lost, .lost, .lost, .lost, .lost, .lost, .lost, .lost, .lost, .lost, .lost, .lost, .lost, .lost, .lost, .lost, .lost, .lost, .lost, .lost, .lost, .lost, .lost, .lost, .lost, .lost, .lost, .lost, .lost, .lost, .lost, .lost, .lost, .lost, .lost, .lost, .lost, .lost, .lost, .lost, .lost, .lost, .lost, .lost, .lost, .lost, .lost, .lost, .lost, .lost, .lost, .lost, .lost, .lost, .lost, .lost, .lost, .lost, .lost, .lost, .lost, .lost, .lost, .lost, .lost, .lost, .lost, .lost, .lost, .lost, .lost, .lost, .lost, .lost, .lost, .lost, .lost, .lost, .lost, .lost, .lost, .lost, .lost, .lost, .lost, .lost, .lost, .lost, .lost, .lost, .lost, .lost, .lost, .lost, .lost, .lost]
theorem check6 : checkAll source sdxl Convert.Spec.sdxlKohya sdxlLost SdxlSgm.vae0 cert6 = true := by kernel_rfl
theorem fresh6 : fresh cert6 2728356161373792449271710015302892427620395817110364360344515836382997157691196508365952007283764901131318390671558385958078489770275789770297260855174545985550632803649225441087184799703434595695875648429326516034756194456408014751566267931737401473861871179688104653180889789175824656586474333084225658805260417556065438253638655692465716743912401656873266177202921956864733716058485030912 2728356161373792449271710015302892427620395817110364360344515836382997157691196508365952007283764901131318390671558385958078489770275789770297260855174545985550632803649225441087184799703434595695875648429326516034756194456408014751566267931737401473861871179688104653180889789175824656586474333084225658805260417556065438253638655692465716743912401656873266177202921956864733716058485030912 = true := by kernel_rfl
theorem below6 : cert6.all (fun c => (positions c).all fun p => decide (p.2 < 128)) = true := by kernel_rfl

noncomputable def cert7 : List Cert := [.lost, .lost, .lost, .lost, .lost, .lost, .lost, .lost, .lost, .lost, .lost, .lost, .lost, .lost, .lost, .lost, .lost, .lost, .lost, .lost, .lost, .lost, .lost, .lost, .lost, .lost, .lost, .lost, .lost, .lost, .lost, .lost, .lost, .lost, .lost, .lost, .lost, .lost, .lost, .lost, .lost, .lost, .lost, .lost, .lost, .lost, .lost, .lost, .lost, .lost, .lost, .lost, .lost, .lost, .lost, .lost, .lost, .lost, .lost, .lost, .lost, .lost, .lost, .lost, .lost, .lost, .lost, .lost, .lost, .lost, .lost, .lost, .lost, .lost, .lost, .lost, .lost, .lost, .lost, .lost, .lost, .lost, .lost, .lost, .lost, .lost, .lost, .lost, .lost, .lost, .lost, .lost, .lost, .lost, .lost, .lost, .lost, .lost, .lost, .lost]
theorem check7 : checkAll source sdxl Convert.Spec.sdxlKohya sdxlLost SdxlSgm.vae1 cert7 = true := by kernel_rfl
theorem fresh7 : fresh cert7 2728356161373792449271710015302892427620395817110364360344515836382997157691196508365952007283764901131318390671558385958078489770275789770297260855174545985550632803649225441087184799703434595695875648429326516034756194456408014751566267931737401473861871179688104653180889789175824656586474333084225658805260417556065438253638655692465716743912401656873266177202921956864733716058485030912 2728356161373792449271710015302892427620395817110364360344515836382997157691196508365952007283764901131318390671558385958078489770275789770297260855174545985550632803649225441087184799703434595695875648429326516034756194456408014751566267931737401473861871179688104653180889789175824656586474333084225658805260417556065438253638655692465716743912401656873266177202921956864733716058485030912 = true := by kernel_rfl
theorem below7 : cert7.all (fun c => (positions c).all fun p => decide (p.2 < 128)) = true := by kernel_rfl

noncomputable def cert8 : List Cert := [.lost, .lost, .lost, .lost, .lost, .lost, .lost, .lost, .lost, .lost, .lost, .lost, .lost, .lost, .lost, .lost, .lost, .lost, .lost, .lost, .lost, .lost, .lost, .lost, .lost, .lost, .lost, .lost, .lost, .lost, .lost, .lost, .lost, .lost, .lost, .lost, .lost, .lost, .lost, .lost, .lost, .lost, .lost, .lost, .lost, .lost, .lost, .lost]
theorem check8 : checkAll source sdxl Convert.Spec.sdxlKohya sdxlLost SdxlSgm.vae2 cert8 = true := by kernel_rfl
theorem fresh8 : fresh cert8 2728356161373792449271710015302892427620395817110364360344515836382997157691196508365952007283764901131318390671558385958078489770275789770297260855174545985550632803649225441087184799703434595695875648429326516034756194456408014751566267931737401473861871179688104653180889789175824656586474333084225658805260417556065438253638655692465716743912401656873266177202921956864733716058485030912 2728356161373792449271710015302892427620395817110364360344515836382997157691196508365952007283764901131318390671558385958078489770275789770297260855174545985550632803649225441087184799703434595695875648429326516034756194456408014751566267931737401473861871179688104653180889789175824656586474333084225658805260417556065438253638655692465716743912401656873266177202921956864733716058485030912 = true := by kernel_rfl
theorem below8 : cert8.all (fun c => (positions c).all fun p => decide (p.2 < 128)) = true := by kernel_rfl

noncomputable def cert9 : List Cert := [.lost, .lost, .read 11 0, .read 11 1, .read 11 2, .read 11 3, .read 11 4, .read 11 5, .read 11 6, .read 11 7, .read 11 8, .read 11 9, .read 11 10, .read 11 11, .read 11 12, .read 11 13, .read 11 14, .read 11 15, .read 11 16, .read 11 17, .read 11 18, .read 11 19, .read 11 20, .read 11 21, .read 11 22, .read 11 23, .read 11 24, .read 11 25, .read 11 26, .read 11 27, .read 11 28, .read 11 29, .read 11 30, .read 11 31, .read 11 32, .read 11 33, .read 11 34, .read 11 35, .read 11 36, .read 11 37, .read 11 38, .read 11 39, .read 11 40, .read 11 41, .read 11 42, .read 11 43, .read 11 44, .read 11 45, .read 11 46, .read 11 47, .read 11 48, .read 11 49, .read 11 50, .read 11 51, .read 11 52, .read 11 53, .read 11 54, .read 11 55, .read 11 56, .read 11 57, .read 11 58, .read 11 59, .read 11 60, .read 11 61, .read 11 62, .read 11 63, .read 11 64, .read 11 65, .read 11 66, .read 11 67, .read 11 68, .read 11 69, .read 11 70, .read 11 71, .read 11 72, .read 11 73, .read 11 74, .read 11 75, .read 11 76, .read 11 77, .read 11 78, .read 11 79, .read 11 80, .read 11 81, .read 11 82, .read 11 83, .read 11 84, .read 11 85, .read 11 86, .read 11 87, .read 11 88, .read 11 89, .read 11 90, .read 11 91, .read 11 92, .read 11 93, .read 11 94, .read 11 95, .read 11 96, .read 11 97]
theorem check9 : checkAll source sdxl Convert.Spec.sdxlKohya sdxlLost SdxlSgm.diffuser0 cert9 = true := by kernel_rfl
theorem fresh9 : fresh cert9 2728356161373792449271710015302892427620395817110364360344515836382997157691196508365952007283764901131318390671558385958078489770275789770297260855174545985550632803649225441087184799703434595695875648429326516034756194456408014751566267931737401473861871179688104653180889789175824656586474333084225658805260417556065438253638655692465716743912401656873266177202921956864733716058485030912 2244778375067778479848165629450891639981630937583671107541011105977740805737093046261490256792197438916709771107519284178094147021112509347228959037474129438414375822934927679159089446324747603950782434858169777645273873773249576072422472324815393679995721553033945865314546408092142922444793947376177473935569664947832096914434381738377856871151000425171008530018414366114847325832759345139387214524405848601433759011999475919743832141267461475108126720 = true := by kernel_rfl
theorem below9 : cert9.all (fun c => (positions c).all fun p => decide (p.2 < 128)) = true := by kernel_rfl

noncomputable def cert10 : List Cert := [.read 11 98, .read 11 99, .read 12 0, .read 12 1, .read 12 2, .read 12 3, .read 12 4, .read 12 5, .read 12 6, .read 12 7, .read 12 8, .read 12 9, .read 12 10, .read 12 11, .read 12 12, .read 12 13, .read 12 14, .read 12 15, .read 12 16, .read 12 17, .read 12 18, .read 12 19, .read 12 20, .read 12 21, .read 12 22, .read 12 23, .read 12 24, .read 12 25, .read 12 26, .read 12 27, .read 12 28, .read 12 29, .read 12 30, .read 12 31, .read 12 32, .read 12 33, .read 12 34, .read 12 35, .read 12 36, .read 12 37, .read 12 38, .read 12 39, .read 12 40, .read 12 41, .read 12 42, .read 12 43, .read 12 44, .read 12 45, .read 12 46, .read 12 47, .read 12 48, .read 12 49, .read 12 50, .read 12 51, .read 12 52, .read 12 53, .read 12 54, .read 12 55, .read 12 56, .read 12 57, .read 12 58, .read 12 59, .read 12 60, .read 12 61, .read 12 62, .read 12 63, .read 12 64, .read 12 65, .read 12 66, .read 12 67, .read 12 68, .read 12 69, .read 12 70, .read 12 71, .read 12 72, .read 12 73, .read 12 74, .read 12 75, .read 12 76, .read 12 77, .read 12 78, .read 12 79, .read 12 80, .read 12 81, .read 12 82, .read 12 83, .read 12 84, .read 12 85, .read 12 86, .read 12 87, .read 12 88, .read 12 89, .read 12 90, .read 12 91, .read 12 92, .read 12 93, .read 12 94, .read 12 95, .read 12 96, .read 12 97]
theorem check10 : checkAll source sdxl Convert.Spec.sdxlKohya sdxlLost SdxlSgm.diffuser1 cert10 = true := by kernel_rfl
theorem fresh10 : fresh cert10 2244778375067778479848165629450891639981630937583671107541011105977740805737093046261490256792197438916709771107519284178094147021112509347228959037474129438414375822934927679159089446324747603950782434858169777645273873773249576072422472324815393679995721553033945865314546408092142922444793947376177473935569664947832096914434381738377856871151000425171008530018414366114847325832759345139387214524405848601433759011999475919743832141267461475108126720 763858498681001819037347853523629211808302191621237136997381012141328765783622133579586784828049616753571166315083572710481058967330144281099682979135744110212680353044474230304036135751847779281558814197734805467076594656377356276157761959401506886522502181183949432354259228786829609411176091927093584059967797953342820473519186590249220826244188105717002384968628713839988022259769541504604045632212160545692786058505481952235623066610792260934275095346134584039036138441353838693040783360 = true := by kernel_rfl
theorem below10 : cert10.all (fun c => (positions c).all fun p => decide (p.2 < 128)) = true := by kernel_rfl

noncomputable def cert11 : List Cert := [.read 12 98, .read 12 99, .read 13 0, .read 13 1, .read 13 2, .read 13 3, .read 13 4, .read 13 5, .read 13 6, .read 13 7, .read 13 8, .read 13 9, .read 13 10, .read 13 11, .read 13 12, .read 13 13, .read 13 14, .read 13 15, .read 13 16, .read 13 17, .read 13 18, .read 13 19, .read 13 20, .read 13 21, .read 13 22, .read 13 23, .read 13 24, .read 13 25, .read 13 26, .read 13 27, .read 13 28, .read 13 29, .read 13 30, .read 13 31, .read 13 32, .read 13 33, .read 13 34, .read 13 35, .read 13 36, .read 13 37, .read 13 38, .read 13 39, .read 13 40, .read 13 41, .read 13 42, .read 13 43, .read 13 44, .read 13 45, .read 13 46, .read 13 47, .read 13 48, .read 13 49, .read 13 50, .read 13 51, .read 13 52, .read 13 53, .read 13 54, .read 13 55, .read 13 56, .read 13 57, .read 13 58, .read 13 59, .read 13 60, .read 13 61, .read 13 62, .read 13 63, .read 13 64, .read 13 65, .read 13 66, .read 13 67, .read 13 68, .read 13 69, .read 13 70, .read 13 71, .read 13 72, .read 13 73, .read 13 74, .read 13 75, .read 13 76, .read 13 77, .read 13 78, .read 13 79, .read 13 80, .read 13 81, .read 13 82, .read 13 83, .read 13 84, .read 13 85, .read 13 86, .read 13 87, .read 13 88, .read 13 89, .read 13 90, .read 13 91, .read 13 92, .read 13 93, .read 13 94, .read 13 95, .read 13 96, .read 13 97]
theorem check11 : checkAll source sdxl Convert.Spec.sdxlKohya sdxlLost SdxlSgm.diffuser2 cert11 = true := by kernel_rfl
theorem fresh11 : fresh cert11 763858498681001819037347853523629211808302191621237136997381012141328765783622133579586784828049616753571166315083572710481058967330144281099682979135744110212680353044474230304036135751847779281558814197734805467076594656377356276157761959401506886522502181183949432354259228786829609411176091927093584059967797953342820473519186590249220826244188105717002384968628713839988022259769541504604045632212160545692786058505481952235623066610792260934275095346134584039036138441353838693040783360 259927577923845850311054544446230310964922099153342725432738393316129667169772549274041760900323856296164570642912116339332204853871630807875660511458205519073256802920010687776402903395586107836557871712065430549826575540266364835457867767790766071843508498472722143061094368529880170731040283952234389849405104581210562176782409813288555601290696908231521931329665679213681601871736261831331730728385148067734334441001626009036746278945854601274978111090576489203312194881956888686041706911042233756650294491164622606000403251200 = true := by kernel_rfl
theorem below11 : cert11.all (fun c => (positions c).all fun p => decide (p.2 < 128)) = true := by kernel_rfl

noncomputable def cert12 : List Cert := [.read 13 98, .read 13 99, .read 14 0, .read 14 1, .read 14 2, .read 14 3, .read 14 4, .read 14 5, .read 14 6, .read 14 7, .read 14 8, .read 14 9, .read 14 10, .read 14 11, .read 14 12, .read 14 13, .read 14 14, .read 14 15, .read 14 16, .read 14 17, .read 14 18, .read 14 19, .read 14 20, .read 14 21, .read 14 22, .read 14 23, .read 14 24, .read 14 25, .read 14 26, .read 14 27, .read 14 28, .read 14 29, .read 14 30, .read 14 31, .read 14 32, .read 14 33, .read 14 34, .read 14 35, .read 14 36, .read 14 37, .read 14 38, .read 14 39, .read 14 40, .read 14 41, .read 14 42, .read 14 43, .read 14 44, .read 14 45, .read 14 46, .read 14 47, .read 14 48, .read 14 49, .read 14 50, .read 14 51, .read 14 52, .read 14 53, .read 14 54, .read 14 55, .read 14 56, .read 14 57, .read 14 58, .read 14 59, .read 14 60, .read 14 61, .read 14 62, .read 14 63, .read 14 64, .read 14 65, .read 14 66, .read 14 67, .read 14 68, .read 14 69, .read 14 70, .read 14 71, .read 14 72, .read 14 73, .read 14 74, .read 14 75, .read 14 76, .read 14 77, .read 14 78, .read 14 79, .read 14 80, .read 14 81, .read 14 82, .read 14 83, .read 14 84, .read 14 85, .read 14 86, .read 14 87, .read 14 88, .read 14 89, .read 14 90, .read 14 91, .read 14 92, .read 14 93, .read 14 94, .read 14 95, .read 14 96, .read 14 97]
theorem check12 : checkAll source sdxl Convert.Spec.sdxlKohya sdxlLost SdxlSgm.diffuser3 cert12 = true := by kernel_rfl
theorem fresh12 : fresh cert12 259927577923845850311054544446230310964922099153342725432738393316129667169772549274041760900323856296164570642912116339332204853871630807875660511458205519073256802920010687776402903395586107836557871712065430549826575540266364835457867767790766071843508498472722143061094368529880170731040283952234389849405104581210562176782409813288555601290696908231521931329665679213681601871736261831331730728385148067734334441001626009036746278945854601274978111090576489203312194881956888686041706911042233756650294491164622606000403251200 88448771443952937988070644154758466312270683479820989223821933016482633368480593921409355366278805557381116608521132936212485317554709912170357463315725938108171280370891205175292847603119857079461815205425860127693800918634095626183589200001856596986490017791034671367623493913385900459556000142932225036033840191132973546522003991742267159963796925715643026015741843019958506480148844046886042534401046323179525241325606822988197965086671726025728448610020960541413375104090230995875312100540566462038762729981504965190515829950159867844396898727360499245979522826240 = true := by kernel_rfl
theorem below12 : cert12.all (fun c => (positions c).all fun p => decide (p.2 < 128)) = true := by kernel_rfl

noncomputable def cert13 : List Cert := [.read 14 98, .read 14 99, .read 15 0, .read 15 1, .read 15 2, .read 15 3, .read 15 4, .read 15 5, .read 15 6, .read 15 7, .read 15 8, .read 15 9, .read 15 10, .read 15 11, .read 15 12, .read 15 13, .read 15 14, .read 15 15, .read 15 16, .read 15 17, .read 15 18, .read 15 19, .read 15 20, .read 15 21, .read 15 22, .read 15 23, .read 15 24, .read 15 25, .read 15 26, .read 15 27, .read 15 28, .read 15 29, .read 15 30, .read 15 31, .read 15 32, .read 15 33, .read 15 34, .read 15 35, .read 15 36, .read 15 37, .read 15 38, .read 15 39, .read 15 40, .read 15 41, .read 15 42, .read 15 43, .read 15 44, .read 15 45, .read 15 46, .read 15 47, .read 15 48, .read 15 49, .read 15 50, .read 15 51, .read 15 52, .read 15 53, .read 15 54, .read 15 55, .read 15 56, .read 15 57, .read 15 58, .read 15 59, .read 15 60, .read 15 61, .read 15 62, .read 15 63, .read 15 64, .read 15 65, .read 15 66, .read 15 67, .read 15 68, .read 15 69, .read 15 70, .read 15 71, .read 15 72, .read 15 73, .read 15 74, .read 15 75, .read 15 76, .read 15 77, .read 15 78, .read 15 79, .read 15 80, .read 15 81, .read 15 82, .read 15 83, .read 15 84, .read 15 85, .read 15 86, .read 15 87, .read 15 88, .read 15 89, .read 15 90, .read 15 91, .read 15 92, .read 15 93, .read 15 94, .read 15 95, .read 15 96, .read 15 97]
theorem check13 : checkAll source sdxl Convert.Spec.sdxlKohya sdxlLost SdxlSgm.diffuser4 cert13 = true := by kernel_rfl
theorem fresh13 : fresh cert13 88448771443952937988070644154758466312270683479820989223821933016482633368480593921409355366278805557381116608521132936212485317554709912170357463315725938108171280370891205175292847603119857079461815205425860127693800918634095626183589200001856596986490017791034671367623493913385900459556000142932225036033840191132973546522003991742267159963796925715643026015741843019958506480148844046886042534401046323179525241325606822988197965086671726025728448610020960541413375104090230995875312100540566462038762729981504965190515829950159867844396898727360499245979522826240 30097557298197417800049182668857255457127651114004233351657515366874545762590314398934634756478146068614699913424216082115142959337072016037445447170329859520896321479694035510404611038724266155800376102976844880946898862888858542688159157934262696723340540957487615648017608495865051860714609912988517561185534947964546892974628697777569098379101293053281757152154031224583367198655317023548602929308538247415820279653967534194378134701197979409371208947570548460649525805336653790998932387230737953620236834115405216088307044942692735396413966052048253355051550677290069335485519317663322792626559102484480 = true := by kernel_rfl
theorem below13 : cert13.all (fun c => (positions c).all fun p => decide (p.2 < 128)) = true := by kernel_rfl

noncomputable def cert14 : List Cert := [.read 15 98, .read 15 99, .read 16 0, .read 16 1, .read 16 2, .read 16 3, .read 16 4, .read 16 5, .read 16 6, .read 16 7, .read 16 8, .read 16 9, .read 16 10, .read 16 11, .read 16 12, .read 16 13, .read 16 14, .read 16 15, .read 16 16, .read 16 17, .read 16 18, .read 16 19, .read 16 20, .read 16 21, .read 16 22, .read 16 23, .read 16 24, .read 16 25, .read 16 26, .read 16 27, .read 16 28, .read 16 29, .read 16 30, .read 16 31, .read 16 32, .read 16 33, .read 16 34, .read 16 35, .read 16 36, .read 16 37, .read 16 38, .read 16 39, .read 16 40, .read 16 41, .read 16 42, .read 16 43, .read 16 44, .read 16 45, .read 16 46, .read 16 47, .read 16 48, .read 16 49, .read 16 50, .read 16 51, .read 16 52, .read 16 53, .read 16 54, .read 16 55, .read 16 56, .read 16 57, .read 16 58, .read 16 59, .read 16 60, .read 16 61, .read 16 62, .read 16 63, .read 16 64, .read 16 65, .read 16 66, .read 16 67, .read 16 68, .read 16 69, .read 16 70, .read 16 71, .read 16 72, .read 16 73, .read 16 74, .read 16 75, .read 16 76, .read 16 77, .read 16 78, .read 16 79, .read 16 80, .read 16 81, .read 16 82, .read 16 83, .read 16 84, .read 16 85, .read 16 86, .read 16 87, .read 16 88, .read 16 89, .read 16 90, .read 16 91, .read 16 92, .read 16 93, .read 16 94, .read 16 95, .read 16 96, .read 16 97]
theorem check14 : checkAll source sdxl Convert.Spec.sdxlKohya sdxlLost SdxlSgm.diffuser5 cert14 = true := by kernel_rfl
theorem fresh14 : fresh cert14 30097557298197417800049182668857255457127651114004233351657515366874545762590314398934634756478146068614699913424216082115142959337072016037445447170329859520896321479694035510404611038724266155800376102976844880946898862888858542688159157934262696723340540957487615648017608495865051860714609912988517561185534947964546892974628697777569098379101293053281757152154031224583367198655317023548602929308538247415820279653967534194378134701197979409371208947570548460649525805336653790998932387230737953620236834115405216088307044942692735396413966052048253355051550677290069335485519317663322792626559102484480 10241668035969183036294057211978455780031220828359153386961686372967964595874399531156015599581909270877992803107834246882636600676829191669282402634243841130377007910833911809195810323074273884379019444102720840186416705293637439451924483745732696427789254973648542598169285322754028357686070863121798928167588031239795503066169538770088135695560935306606651119090259204888984222817921112942999346531308255267155949609721833818348267548711188191682492224254477762381837523216304924990836726290064828257627529216788959750053573103868801003226579882890992426052131816064433089294640702091086586528135546432256900033340680370334270138021123635281920 = true := by kernel_rfl
theorem below14 : cert14.all (fun c => (positions c).all fun p => decide (p.2 < 128)) = true := by kernel_rfl

noncomputable def cert15 : List Cert := [.read 16 98, .read 16 99, .read 17 0, .read 17 1, .read 17 2, .read 17 3, .read 17 4, .read 17 5, .read 17 6, .read 17 7, .read 17 8, .read 17 9, .read 17 10, .read 17 11, .read 17 12, .read 17 13, .read 17 14, .read 17 15, .read 17 16, .read 17 17, .read 17 18, .read 17 19, .read 17 20, .read 17 21, .read 17 22, .read 17 23, .read 17 24, .read 17 25, .read 17 26, .read 17 27, .read 17 28, .read 17 29, .read 17 30, .read 17 31, .read 17 32, .read 17 33, .read 17 34, .read 17 35, .read 17 36, .read 17 37, .read 17 38, .read 17 39, .read 17 40, .read 17 41, .read 17 42, .read 17 43, .read 17 44, .read 17 45, .read 17 46, .read 17 47, .read 17 48, .read 17 49, .read 17 50, .read 17 51, .read 17 52, .read 17 53, .read 17 54, .read 17 55, .read 17 56, .read 17 57, .read 17 58, .read 17 59, .read 17 60, .read 17 61, .read 17 62, .read 17 63, .read 17 64, .read 17 65, .read 17 66, .read 17 67, .read 17 68, .read 17 69, .read 17 70, .read 17 71, .read 17 72, .read 17 73, .read 17 74, .read 17 75, .read 17 76, .read 17 77, .read 17 78, .read 17 79, .read 17 80, .read 17 81, .read 17 82, .read 17 83, .read 17 84, .read 17 85, .read 17 86, .read 17 87, .read 17 88, .read 17 89, .read 17 90, .read 17 91, .read 17 92, .read 17 93, .read 17 94, .read 17 95, .read 17 96, .read 17 97]
theorem check15 : checkAll source sdxl Convert.Spec.sdxlKohya sdxlLost SdxlSgm.diffuser6 cert15 = true := by kernel_rfl
theorem fresh15 : fresh cert15 10241668035969183036294057211978455780031220828359153386961686372967964595874399531156015599581909270877992803107834246882636600676829191669282402634243841130377007910833911809195810323074273884379019444102720840186416705293637439451924483745732696427789254973648542598169285322754028357686070863121798928167588031239795503066169538770088135695560935306606651119090259204888984222817921112942999346531308255267155949609721833818348267548711188191682492224254477762381837523216304924990836726290064828257627529216788959750053573103868801003226579882890992426052131816064433089294640702091086586528135546432256900033340680370334270138021123635281920 3485059040498112731024622706255423482459227564668164470391422832933239855534433342680143362086581841030507561027669719513705088728943583293447002020648876387420103382639647485731522710226122079584347224949929320702108238679266606245877938714929293292939977256311248048590331630911195747824414681254361256690005116393759631115134873281380909170306052872040236483960802171549767703307095897638261552769958902693198663270890441932142860295546758591818692006350133349090058015434349357526699401088573729801645162909444701266424719732643521142790056467649631318638057256851387450637402092128452563048038235208440350072708962128582290184578757376934640520905632911640368847694024044770754560 = true := by kernel_rfl
theorem below15 : cert15.all (fun c => (positions c).all fun p => decide (p.2 < 128)) = true := by kernel_rfl

noncomputable def cert16 : List Cert := [.read 17 98, .read 17 99, .read 18 0, .read 18 1, .read 18 2, .read 18 3, .read 18 4, .read 18 5, .read 18 6, .read 18 7, .read 18 8, .read 18 9, .read 18 10, .read 18 11, .read 18 12, .read 18 13, .read 18 14, .read 18 15, .read 18 16, .read 18 17, .read 18 18, .read 18 19, .read 18 20, .read 18 21, .read 18 22, .read 18 23, .read 18 24, .read 18 25, .read 18 26, .read 18 27, .read 18 28, .read 18 29, .read 18 30, .read 18 31, .read 18 32, .read 18 33, .read 18 34, .read 18 35, .read 18 36, .read 18 37, .read 18 38, .read 18 39, .read 18 40, .read 18 41, .read 18 42, .read 18 43, .read 18 44, .read 18 45, .read 18 46, .read 18 47, .read 18 48, .read 18 49, .read 18 50, .read 18 51, .read 18 52, .read 18 53, .read 18 54, .read 18 55, .read 18 56, .read 18 57, .read 18 58, .read 18 59, .read 18 60, .read 18 61, .read 18 62, .read 18 63, .read 18 64, .read 18 65, .read 18 66, .read 18 67, .read 18 68, .read 18 69, .read 18 70, .read 18 71, .read 18 72, .read 18 73, .read 18 74, .read 18 75, .read 18 76, .read 18 77, .read 18 78, .read 18 79, .read 18 80, .read 18 81, .read 18 82, .read 18 83, .read 18 84, .read 18 85, .read 18 86, .read 18 87, .read 18 88, .read 18 89, .read 18 90, .read 18 91, .read 18 92, .read 18 93, .read 18 94, .read 18 95, .read 18 96, .read 18 97]
theorem check16 : checkAll source sdxl Convert.Spec.sdxlKohya sdxlLost SdxlSgm.diffuser7 cert16 = true := by kernel_rfl
theorem fresh16 : fresh cert16 3485059040498112731024622706255423482459227564668164470391422832933239855534433342680143362086581841030507561027669719513705088728943583293447002020648876387420103382639647485731522710226122079584347224949929320702108238679266606245877938714929293292939977256311248048590331630911195747824414681254361256690005116393759631115134873281380909170306052872040236483960802171549767703307095897638261552769958902693198663270890441932142860295546758591818692006350133349090058015434349357526699401088573729801645162909444701266424719732643521142790056467649631318638057256851387450637402092128452563048038235208440350072708962128582290184578757376934640520905632911640368847694024044770754560 1185904139159912536483254776419814732911620500640157750414889426513393001150455509387327830767450786025832009151716422480022746799552465015189196080768731199321641473502638164953085114192306023591359859125499633140187443557466184975082912179053839510641462506210293807915215799398814353823751224853497322534012612796228916119649457843276609176836340139292058699845068720547052724903468739735269368267072477951339679972350592575564801470078471955306184409781361500133926308494832487768569423717100880920433736275541859762530093235029777365560310015262393196439435978561819163119456988330292561133641086145170576805431274891025286728948273915580629116735589648132803906679390482477828494136234479762426218101920946494793318400 = true := by kernel_rfl
theorem below16 : cert16.all (fun c => (positions c).all fun p => decide (p.2 < 128)) = true := by kernel_rfl

noncomputable def cert17 : List Cert := [.read 18 98, .read 18 99, .read 19 0, .read 19 1, .read 19 2, .read 19 3, .read 19 4, .read 19 5, .read 19 6, .read 19 7, .read 19 8, .read 19 9, .read 19 10, .read 19 11, .read 19 12, .read 19 13, .read 19 14, .read 19 15, .read 19 16, .read 19 17, .read 19 18, .read 19 19, .read 19 20, .read 19 21, .read 19 22, .read 19 23, .read 19 24, .read 19 25, .read 19 26, .read 19 27, .read 19 28, .read 19 29, .read 19 30, .read 19 31, .read 19 32, .read 19 33, .read 19 34, .read 19 35, .read 19 36, .read 19 37, .read 19 38, .read 19 39, .read 19 40, .read 19 41, .read 19 42, .read 19 43, .read 19 44, .read 19 45, .read 19 46, .read 19 47, .read 19 48, .read 19 49, .read 19 50, .read 19 51, .read 19 52, .read 19 53, .read 19 54, .read 19 55, .read 19 56, .read 19 57, .read 19 58, .read 19 59, .read 19 60, .read 19 61, .read 19 62, .read 19 63, .read 19 64, .read 19 65, .read 19 66, .read 19 67, .read 19 68, .read 19 69, .read 19 70, .read 19 71, .read 19 72, .read 19 73, .read 19 74, .read 19 75, .read 19 76, .read 19 77, .read 19 78, .read 19 79, .read 19 80, .read 19 81, .read 19 82, .read 19 83, .read 19 84, .read 19 85, .read 19 86, .read 19 87, .read 19 88, .read 19 89, .read 19 90, .read 19 91, .read 19 92, .read 19 93, .read 19 94, .read 19 95, .read 19 96, .read 19 97]
theorem check17 : checkAll source sdxl Convert.Spec.sdxlKohya sdxlLost SdxlSgm.diffuser8 cert17 = true := by kernel_rfl
theorem fresh17 : fresh cert17 1185904139159912536483254776419814732911620500640157750414889426513393001150455509387327830767450786025832009151716422480022746799552465015189196080768731199321641473502638164953085114192306023591359859125499633140187443557466184975082912179053839510641462506210293807915215799398814353823751224853497322534012612796228916119649457843276609176836340139292058699845068720547052724903468739735269368267072477951339679972350592575564801470078471955306184409781361500133926308494832487768569423717100880920433736275541859762530093235029777365560310015262393196439435978561819163119456988330292561133641086145170576805431274891025286728948273915580629116735589648132803906679390482477828494136234479762426218101920946494793318400 403542267414673026000369082199189136500941226079492474407338135872391450784041012011944965018579625071628260513349298215096856776953282626996950934956945372285623650187025305879013171614489597512805030218249782849537746388524682564494654375983659389821656657768144526996531012419626496705316089247770477461234155538451138832336612638993867535052526362887369447544421494372832999177927998434589505961327509275970691448902477738452434154220884420666695305157315703427051619864734683143069086698702529132218987977223233503500402144306514918923471899230794533951602898476019705631784019737955506200903714136385209683631970046773926374417839087689844432839270397087842809824663169014704839313570248274254534326541587416647557654726841697561676552803787762535172669440 = true := by kernel_rfl
theorem below17 : cert17.all (fun c => (positions c).all fun p => decide (p.2 < 128)) = true := by kernel_rfl

noncomputable def cert18 : List Cert := [.read 19 98, .read 19 99, .read 20 0, .read 20 1, .read 20 2, .read 20 3, .read 20 4, .read 20 5, .read 20 6, .read 20 7, .read 20 8, .read 20 9, .read 20 10, .read 20 11, .read 20 12, .read 20 13, .read 20 14, .read 20 15, .read 20 16, .read 20 17, .read 20 18, .read 20 19, .read 20 20, .read 20 21, .read 20 22, .read 20 23, .read 20 24, .read 20 25, .read 20 26, .read 20 27, .read 20 28, .read 20 29, .read 20 30, .read 20 31, .read 20 32, .read 20 33, .read 20 34, .read 20 35, .read 20 36, .read 20 37, .read 20 38, .read 20 39, .read 20 40, .read 20 41, .read 20 42, .read 20 43, .read 20 44, .read 20 45, .read 20 46, .read 20 47, .read 20 48, .read 20 49, .read 20 50, .read 20 51, .read 20 52, .read 20 53, .read 20 54, .read 20 55, .read 20 56, .read 20 57, .read 20 58, .read 20 59, .read 20 60, .read 20 61, .read 20 62, .read 20 63, .read 20 64, .read 20 65, .read 20 66, .read 20 67, .read 20 68, .read 20 69, .read 20 70, .read 20 71, .read 20 72, .read 20 73, .read 20 74, .read 20 75, .read 20 76, .read 20 77, .read 20 78, .read 20 79, .read 20 80, .read 20 81, .read 20 82, .read 20 83, .read 20 84, .read 20 85, .read 20 86, .read 20 87, .read 20 88, .read 20 89, .read 20 90, .read 20 91, .read 20 92, .read 20 93, .read 20 94, .read 20 95, .read 20 96, .read 20 97]
theorem check18 : checkAll source sdxl Convert.Spec.sdxlKohya sdxlLost SdxlSgm.diffuser9 cert18 = true := by kernel_rfl
theorem fresh18 : fresh cert18 403542267414673026000369082199189136500941226079492474407338135872391450784041012011944965018579625071628260513349298215096856776953282626996950934956945372285623650187025305879013171614489597512805030218249782849537746388524682564494654375983659389821656657768144526996531012419626496705316089247770477461234155538451138832336612638993867535052526362887369447544421494372832999177927998434589505961327509275970691448902477738452434154220884420666695305157315703427051619864734683143069086698702529132218987977223233503500402144306514918923471899230794533951602898476019705631784019737955506200903714136385209683631970046773926374417839087689844432839270397087842809824663169014704839313570248274254534326541587416647557654726841697561676552803787762535172669440 137318317908507236099180308121727245148233191698971319731323920202607071055447452608904158674213059271013784452191240045349931615731579205779270242725392802176916376209390164341139901932643936180976923603379331622228805712357937962690546019974168574897933135577133522166860807060017619300425799933230711202942694516525257943398175100716932603091638441700404932093811806724638265396872251045804653314018154768269032585684580751903334694947454908970819803771721616388831382448464050459989379421131431430993047474863361591205766295855110825575693424171199391640549922083315016546621940183050637564381674996771079289362845461707148727628865132657456267437922488250429053526061799316445160604644420992788392120170955653034377875032610827651446563980355617431553091358375871342163212137950793316829946183680 = true := by kernel_rfl
theorem below18 : cert18.all (fun c => (positions c).all fun p => decide (p.2 < 128)) = true := by kernel_rfl

noncomputable def cert19 : List Cert := [.read 20 98, .read 20 99, .read 21 0, .read 21 1, .read 21 2, .read 21 3, .read 21 4, .read 21 5, .read 21 6, .read 21 7, .read 21 8, .read 21 9, .read 21 10, .read 21 11, .read 21 12, .read 21 13, .read 21 14, .read 21 15, .read 21 16, .read 21 17, .read 21 18, .read 21 19, .read 21 20, .read 21 21, .read 21 22, .read 21 23, .read 21 24, .read 21 25, .read 21 26, .read 21 27, .read 21 28, .read 21 29, .read 21 30, .read 21 31, .read 21 32, .read 21 33, .read 21 34, .read 21 35, .read 21 36, .read 21 37, .read 21 38, .read 21 39, .read 21 40, .read 21 41, .read 21 42, .read 21 43, .read 21 44, .read 21 45, .read 21 46, .read 21 47, .read 21 48, .read 21 49, .read 21 50, .read 21 51, .read 21 52, .read 21 53, .read 21 54, .read 21 55, .read 21 56, .read 21 57, .read 21 58, .read 21 59, .read 21 60, .read 21 61, .read 21 62, .read 21 63, .read 21 64, .read 21 65, .read 21 66, .read 21 67, .read 21 68, .read 21 69, .read 21 70, .read 21 71, .read 21 72, .read 21 73, .read 21 74, .read 21 75, .read 21 76, .read 21 77, .read 21 78, .read 21 79, .read 21 80, .read 21 81, .read 21 82, .read 21 83, .read 21 84, .read 21 85, .read 21 86, .read 21 87, .read 21 88, .read 21 89, .read 21 90, .read 21 91, .read 21 92, .read 21 93, .read 21 94, .read 21 95, .read 21 96, .read 21 97]
theorem check19 : checkAll source sdxl Convert.Spec.sdxlKohya sdxlLost SdxlSgm.diffuser10 cert19 = true := by kernel_rfl
theorem fresh19 : fresh cert19 137318317908507236099180308121727245148233191698971319731323920202607071055447452608904158674213059271013784452191240045349931615731579205779270242725392802176916376209390164341139901932643936180976923603379331622228805712357937962690546019974168574897933135577133522166860807060017619300425799933230711202942694516525257943398175100716932603091638441700404932093811806724638265396872251045804653314018154768269032585684580751903334694947454908970819803771721616388831382448464050459989379421131431430993047474863361591205766295855110825575693424171199391640549922083315016546621940183050637564381674996771079289362845461707148727628865132657456267437922488250429053526061799316445160604644420992788392120170955653034377875032610827651446563980355617431553091358375871342163212137950793316829946183680 46727002239508734527985536199872878514809189518516873420280769072370553896654180762182407974419337780328040376647971177179039269408527954107117320649112640944964937516139808176720676531168364349482004068047450918201392428227302633303288261807925179434710298209434720365414654783830452405840149172601369882873965162046727657270300965447278357258930643206150417396175241471477649731055553924402968400481633781962949431215740796506519278791999030983020561477099566092105312101654283545429889630492490009269084879436187679090451616672121501621144205093480933082722723435453508863138373700527821268901947871874091948595498837383000752799673876533563302869938875675027225361752981182513910608200524589315701853783800397643361903727245260645530188434010758792014178426310638020282685482897034440007464302206326613657676251584871956648834493317120 = true := by kernel_rfl
theorem below19 : cert19.all (fun c => (positions c).all fun p => decide (p.2 < 128)) = true := by kernel_rfl

noncomputable def cert20 : List Cert := [.read 21 98, .read 21 99, .read 22 0, .read 22 1, .read 22 2, .read 22 3, .read 22 4, .read 22 5, .read 22 6, .read 22 7, .read 22 8, .read 22 9, .read 22 10, .read 22 11, .read 22 12, .read 22 13, .read 22 14, .read 22 15, .read 22 16, .read 22 17, .read 22 18, .read 22 19, .read 22 20, .read 22 21, .read 22 22, .read 22 23, .read 22 24, .read 22 25, .read 22 26, .read 22 27, .read 22 28, .read 22 29, .read 22 30, .read 22 31, .read 22 32, .read 22 33, .read 22 34, .read 22 35, .read 22 36, .read 22 37, .read 22 38, .read 22 39, .read 22 40, .read 22 41, .read 22 42, .read 22 43, .read 22 44, .read 22 45, .read 22 46, .read 22 47, .read 22 48, .read 22 49, .read 22 50, .read 22 51, .read 22 52, .read 22 53, .read 22 54, .read 22 55, .read 22 56, .read 22 57, .read 22 58, .read 22 59, .read 22 60, .read 22 61, .read 22 62, .read 22 63, .read 22 64, .read 22 65, .read 22 66, .read 22 67, .read 22 68, .read 22 69, .read 22 70, .read 22 71, .read 22 72, .read 22 73, .read 22 74, .read 22 75, .read 22 76, .read 22 77, .read 22 78, .read 22 79, .read 22 80, .read 22 81, .read 22 82, .read 22 83, .read 22 84, .read 22 85, .read 22 86, .read 22 87, .read 22 88, .read 22 89, .read 22 90, .read 22 91, .read 22 92, .read 22 93, .read 22 94, .read 22 95, .read 22 96, .read 22 97]
theorem check20 : checkAll source sdxl Convert.Spec.sdxlKohya sdxlLost SdxlSgm.diffuser11 cert20 = true := by kernel_rfl
theorem fresh20 : fresh cert20 46727002239508734527985536199872878514809189518516873420280769072370553896654180762182407974419337780328040376647971177179039269408527954107117320649112640944964937516139808176720676531168364349482004068047450918201392428227302633303288261807925179434710298209434720365414654783830452405840149172601369882873965162046727657270300965447278357258930643206150417396175241471477649731055553924402968400481633781962949431215740796506519278791999030983020561477099566092105312101654283545429889630492490009269084879436187679090451616672121501621144205093480933082722723435453508863138373700527821268901947871874091948595498837383000752799673876533563302869938875675027225361752981182513910608200524589315701853783800397643361903727245260645530188434010758792014178426310638020282685482897034440007464302206326613657676251584871956648834493317120 15900374921180024507551649642345136113017447768256016107248999495517610618165197214589708212725158969265562936095087793044519670342363049349753746259380299928341676688045544131396949051139680561043962423042638233732722341436687436262686591432573351805809595498433554562130441095517171246677032838935505815306255408463741783253125767599675761242520047280275160373795643474751273270109241687037602662192759250992833960803709479115870493689577778185511459320270877063860402899121447629061790595208977547113212152502641516237709316566618111705081233297841544462030425898784940946685885907352579814057863655499714588030289654521555693430913970100438177822474042460746190173848321714701665875481014493950931421632344521703079899478698154308705570311797123840901528599826606546792361904135560759830877525717929279940051469682260789191888483194129226382772909442170061353793475062005760 = true := by kernel_rfl
theorem below20 : cert20.all (fun c => (positions c).all fun p => decide (p.2 < 128)) = true := by kernel_rfl

noncomputable def cert21 : List Cert := [.read 22 98, .read 22 99, .read 23 0, .read 23 1, .read 23 2, .read 23 3, .read 23 4, .read 23 5, .read 23 6, .read 23 7, .read 23 8, .read 23 9, .read 23 10, .read 23 11, .read 23 12, .read 23 13, .read 23 14, .read 23 15, .read 23 16, .read 23 17, .read 23 18, .read 23 19, .read 23 20, .read 23 21, .read 23 22, .read 23 23, .read 23 24, .read 23 25, .read 23 26, .read 23 27, .read 23 28, .read 23 29, .read 23 30, .read 23 31, .read 23 32, .read 23 33, .read 23 34, .read 23 35, .read 23 36, .read 23 37, .read 23 38, .read 23 39, .read 23 40, .read 23 41, .read 23 42, .read 23 43, .read 23 44, .read 23 45, .read 23 46, .read 23 47, .read 23 48, .read 23 49, .read 23 50, .read 23 51, .read 23 52, .read 23 53, .read 23 54, .read 23 55, .read 23 56, .read 23 57, .read 23 58, .read 23 59, .read 23 60, .read 23 61, .read 23 62, .read 23 63, .read 23 64, .read 23 65, .read 23 66, .read 23 67, .read 23 68, .read 23 69, .read 23 70, .read 23 71, .read 23 72, .read 23 73, .read 23 74, .read 23 75, .read 23 76, .read 23 77, .read 23 78, .read 23 79, .read 23 80, .read 23 81, .read 23 82, .read 23 83, .read 23 84, .read 23 85, .read 23 86, .read 23 87, .read 23 88, .read 23 89, .read 23 90, .read 23 91, .read 23 92, .read 23 93, .read 23 94, .read 23 95, .read 23 96, .read 23 97]
theorem check21 : checkAll source sdxl Convert.Spec.sdxlKohya sdxlLost SdxlSgm.diffuser12 cert21 = true := by kernel_rfl
theorem fresh21 : fresh cert21 15900374921180024507551649642345136113017447768256016107248999495517610618165197214589708212725158969265562936095087793044519670342363049349753746259380299928341676688045544131396949051139680561043962423042638233732722341436687436262686591432573351805809595498433554562130441095517171246677032838935505815306255408463741783253125767599675761242520047280275160373795643474751273270109241687037602662192759250992833960803709479115870493689577778185511459320270877063860402899121447629061790595208977547113212152502641516237709316566618111705081233297841544462030425898784940946685885907352579814057863655499714588030289654521555693430913970100438177822474042460746190173848321714701665875481014493950931421632344521703079899478698154308705570311797123840901528599826606546792361904135560759830877525717929279940051469682260789191888483194129226382772909442170061353793475062005760 5410617213109469099770768110906931093500300233154850430937943908517753530809713438480231303168285804777214435807539324661296442734017367785353193649453511152107997674384680900006497554695738117490984650981296415028296560177256425325871640022085711649685372334194913053175927702318355792745785178634779789293443322850089767028380511540376382392909264811696494483126238609119776270097239287960670913639256753013571100330194631654317061456224362824005232023131248239979228070838552288750034254740262981091190798537717914159405255477739896806285462234270271614507999840851619101992321832599556964692024321101206123248069153409758289092489056839147691436309862745357002650229616923819874301550635482225832514114308215502629253771168639123928360467993657903085769502147769952118247454539870405199175435783204325022443562349640980358127584054032667511173046136464993419729150129458174856106375306283001458396946283207065600 = true := by kernel_rfl
theorem below21 : cert21.all (fun c => (positions c).all fun p => decide (p.2 < 128)) = true := by kernel_rfl

noncomputable def cert22 : List Cert := [.read 23 98, .read 23 99, .read 24 0, .read 24 1, .read 24 2, .read 24 3, .read 24 4, .read 24 5, .read 24 6, .read 24 7, .read 24 8, .read 24 9, .read 24 10, .read 24 11, .read 24 12, .read 24 13, .read 24 14, .read 24 15, .read 24 16, .read 24 17, .read 24 18, .read 24 19, .read 24 20, .read 24 21, .read 24 22, .read 24 23, .read 24 24, .read 24 25, .read 24 26, .read 24 27, .read 24 28, .read 24 29, .read 24 30, .read 24 31, .read 24 32, .read 24 33, .read 24 34, .read 24 35, .read 24 36, .read 24 37, .read 24 38, .read 24 39, .read 24 40, .read 24 41, .read 24 42, .read 24 43, .read 24 44, .read 24 45, .read 24 46, .read 24 47, .read 24 48, .read 24 49, .read 24 50, .read 24 51, .read 24 52, .read 24 53, .read 24 54, .read 24 55, .read 24 56, .read 24 57, .read 24 58, .read 24 59, .read 24 60, .read 24 61, .read 24 62, .read 24 63, .read 24 64, .read 24 65, .read 24 66, .read 24 67, .read 24 68, .read 24 69, .read 24 70, .read 24 71, .read 24 72, .read 24 73, .read 24 74, .read 24 75, .read 24 76, .read 24 77, .read 24 78, .read 24 79, .read 24 80, .read 24 81, .read 24 82, .read 24 83, .read 24 84, .read 24 85, .read 24 86, .read 24 87, .read 24 88, .read 24 89, .read 24 90, .read 24 91, .read 24 92, .read 24 93, .read 24 94, .read 24 95, .read 24 96, .read 24 97]
theorem check22 : checkAll source sdxl Convert.Spec.sdxlKohya sdxlLost SdxlSgm.diffuser13 cert22 = true := by kernel_rfl
theorem fresh22 : fresh cert22 5410617213109469099770768110906931093500300233154850430937943908517753530809713438480231303168285804777214435807539324661296442734017367785353193649453511152107997674384680900006497554695738117490984650981296415028296560177256425325871640022085711649685372334194913053175927702318355792745785178634779789293443322850089767028380511540376382392909264811696494483126238609119776270097239287960670913639256753013571100330194631654317061456224362824005232023131248239979228070838552288750034254740262981091190798537717914159405255477739896806285462234270271614507999840851619101992321832599556964692024321101206123248069153409758289092489056839147691436309862745357002650229616923819874301550635482225832514114308215502629253771168639123928360467993657903085769502147769952118247454539870405199175435783204325022443562349640980358127584054032667511173046136464993419729150129458174856106375306283001458396946283207065600 1841137631780061864903407580993813763745538175368714511640240108463182562807275692359494076342370744397227610681390168202270861483683999846304661896008480847710074768371132029224943487972456323654367974652949069421574492596684955059208023452038452353869302214108286882492871199124146856432856657157405097623160623090518526216904999936475432774514106796243192334158625925998839124867729175036126984646835631515169953342226169530720638872970373262153743778933797676472802250032697023948580273539413646420719670078779228802924771081003140843118007521313320851542330482539541209031390352916868377502175599635284790824089682985628796652175026309519566753826938836388652029669958706362428493761526731944294863150262892892778649509147955904647281911995046502675126896309413992093181463991077580688201002942126573281625300350704746597450486880899339995151362762610458713088075349010589531817587246001354204056944819344578428901505516927444318633976222402100592640 = true := by kernel_rfl
theorem below22 : cert22.all (fun c => (positions c).all fun p => decide (p.2 < 128)) = true := by kernel_rfl

noncomputable def cert23 : List Cert := [.read 24 98, .read 24 99, .read 25 0, .read 25 1, .read 25 2, .read 25 3, .read 25 4, .read 25 5, .read 25 6, .read 25 7, .read 25 8, .read 25 9, .read 25 10, .read 25 11, .read 25 12, .read 25 13, .read 25 14, .read 25 15, .read 25 16, .read 25 17, .read 25 18, .read 25 19, .read 25 20, .read 25 21, .read 25 22, .read 25 23, .read 25 24, .read 25 25, .read 25 26, .read 25 27, .read 25 28, .read 25 29, .read 25 30, .read 25 31, .read 25 32, .read 25 33, .read 25 34, .read 25 35, .read 25 36, .read 25 37, .read 25 38, .read 25 39, .read 25 40, .read 25 41, .read 25 42, .read 25 43, .read 25 44, .read 25 45, .read 25 46, .read 25 47, .read 25 48, .read 25 49, .read 25 50, .read 25 51, .read 25 52, .read 25 53, .read 25 54, .read 25 55, .read 25 56, .read 25 57, .read 25 58, .read 25 59, .read 25 60, .read 25 61, .read 25 62, .read 25 63, .read 25 64, .read 25 65, .read 25 66, .read 25 67, .read 25 68, .read 25 69, .read 25 70, .read 25 71, .read 25 72, .read 25 73, .read 25 74, .read 25 75, .read 25 76, .read 25 77, .read 25 78, .read 25 79, .read 25 80, .read 25 81, .read 25 82, .read 25 83, .read 25 84, .read 25 85, .read 25 86, .read 25 87, .read 25 88, .read 25 89, .read 25 90, .read 25 91, .read 25 92, .read 25 93, .read 25 94, .read 25 95, .read 25 96, .read 25 97]
theorem check23 : checkAll source sdxl Convert.Spec.sdxlKohya sdxlLost SdxlSgm.diffuser14 cert23 = true := by kernel_rfl
theorem fresh23 : fresh cert23 1841137631780061864903407580993813763745538175368714511640240108463182562807275692359494076342370744397227610681390168202270861483683999846304661896008480847710074768371132029224943487972456323654367974652949069421574492596684955059208023452038452353869302214108286882492871199124146856432856657157405097623160623090518526216904999936475432774514106796243192334158625925998839124867729175036126984646835631515169953342226169530720638872970373262153743778933797676472802250032697023948580273539413646420719670078779228802924771081003140843118007521313320851542330482539541209031390352916868377502175599635284790824089682985628796652175026309519566753826938836388652029669958706362428493761526731944294863150262892892778649509147955904647281911995046502675126896309413992093181463991077580688201002942126573281625300350704746597450486880899339995151362762610458713088075349010589531817587246001354204056944819344578428901505516927444318633976222402100592640 626506671169330704651830448385910979397004010124055458383633873339448641206652739764053766759197835733654712782475858903823474134325531821749300438902866416613228358927231538990894647626049547878840871707353671536130772939954315288373657562120342886455717738810021802618779239892347338403458704943792643707395970198260024963630371872088691649475657815828606845091804650041991204266146302423675983174978170559782831706978713583003494344204814405457215149706201222144455737834073029396265616998845656749470178222560227722126427331500287240093543046638809200208494283750265276442994776718923901835380228855924449887761519374139847587339829652675469231715635850320016300598189385421430343013292569830193503862223267421267529285541652472614581360777263760768449417895802268754408670676945556153902801040219582157917075423321768461718520182787389007792453652717601266157825611553609448165577419949171981696272306514478357661340903317179226331128708840367749028986959517283754776231680882158474362880 = true := by kernel_rfl
theorem below23 : cert23.all (fun c => (positions c).all fun p => decide (p.2 < 128)) = true := by kernel_rfl

noncomputable def cert24 : List Cert := [.read 25 98, .read 25 99, .read 26 0, .read 26 1, .read 26 2, .read 26 3, .read 26 4, .read 26 5, .read 26 6, .read 26 7, .read 26 8, .read 26 9, .read 26 10, .read 26 11, .read 26 12, .read 26 13, .read 26 14, .read 26 15, .read 26 16, .read 26 17, .read 26 18, .read 26 19, .read 26 20, .read 26 21, .read 26 22, .read 26 23, .read 26 24, .read 26 25, .read 26 26, .read 26 27, .read 26 28, .read 26 29, .read 26 30, .read 26 31, .read 26 32, .read 26 33, .read 26 34, .read 26 35, .read 26 36, .read 26 37, .read 26 38, .read 26 39, .read 26 40, .read 26 41, .read 26 42, .read 26 43, .read 26 44, .read 26 45, .read 26 46, .read 26 47, .read 26 48, .read 26 49, .read 26 50, .read 26 51, .read 26 52, .read 26 53, .read 26 54, .read 26 55, .read 26 56, .read 26 57, .read 26 58, .read 26 59, .read 26 60, .read 26 61, .read 26 62, .read 26 63, .read 26 64, .read 26 65, .read 26 66, .read 26 67, .read 26 68, .read 26 69, .read 26 70, .read 26 71, .read 26 72, .read 26 73, .read 26 74, .read 26 75, .read 26 76, .read 26 77, .read 26 78, .read 26 79, .read 26 80, .read 26 81, .read 26 82, .read 26 83, .read 26 84, .read 26 85, .read 26 86, .read 26 87, .read 26 88, .read 26 89, .read 26 90, .read 26 91, .read 26 92, .read 26 93, .read 26 94, .read 26 95, .read 26 96, .read 26 97]
theorem check24 : checkAll source sdxl Convert.Spec.sdxlKohya sdxlLost SdxlSgm.diffuser15 cert24 = true := by kernel_rfl
theorem fresh24 : fresh cert24 626506671169330704651830448385910979397004010124055458383633873339448641206652739764053766759197835733654712782475858903823474134325531821749300438902866416613228358927231538990894647626049547878840871707353671536130772939954315288373657562120342886455717738810021802618779239892347338403458704943792643707395970198260024963630371872088691649475657815828606845091804650041991204266146302423675983174978170559782831706978713583003494344204814405457215149706201222144455737834073029396265616998845656749470178222560227722126427331500287240093543046638809200208494283750265276442994776718923901835380228855924449887761519374139847587339829652675469231715635850320016300598189385421430343013292569830193503862223267421267529285541652472614581360777263760768449417895802268754408670676945556153902801040219582157917075423321768461718520182787389007792453652717601266157825611553609448165577419949171981696272306514478357661340903317179226331128708840367749028986959517283754776231680882158474362880 213189172957257929911609185894834863004820710416763381093700679080412054524097741365798366946606751270711119481470444250446433239523957406000788932543129210850611171838411848952039222946269740587122678913282490846560252108724541658139009912851985578593009421686259423786613616924937701209182306582942331075675272252567497829963605021316237131344833349587146526666638529849462766196107705386731370305607902484564255079451165236714421944570841773248091927244837645206350927041133664925531640743879310603165744135663053450447200210246324731426936006053962657963890372441574046092909682996924188004139145757060181992354107152176934835568288966848464075164531014653020648739060297222729311781751922475949317214957297068635538936478135747040505276028320518252309778621591536829334421951932944447953220691154170120333019633621161694055942255901826588675821073653282028094400429464096345795086879403055511858748931286002402317975855743911662423436917292417158892380620766160076392242976898767290333585498475592332774740226500034914754232320 = true := by kernel_rfl
theorem below24 : cert24.all (fun c => (positions c).all fun p => decide (p.2 < 128)) = true := by kernel_rfl

noncomputable def cert25 : List Cert := [.read 26 98, .read 26 99, .read 27 0, .read 27 1, .read 27 2, .read 27 3, .read 27 4, .read 27 5, .read 27 6, .read 27 7, .read 27 8, .read 27 9, .read 27 10, .read 27 11, .read 27 12, .read 27 13, .read 27 14, .read 27 15, .read 27 16, .read 27 17, .read 27 18, .read 27 19, .read 27 20, .read 27 21, .read 27 22, .read 27 23, .read 27 24, .read 27 25, .read 27 26, .read 27 27, .read 27 28, .read 27 29, .read 27 30, .read 27 31, .read 27 32, .read 27 33, .read 27 34, .read 27 35, .read 27 36, .read 27 37, .read 27 38, .read 27 39, .read 27 40, .read 27 41, .read 27 42, .read 27 43, .read 27 44, .read 27 45, .read 27 46, .read 27 47, .read 27 48, .read 27 49, .read 27 50, .read 27 51, .read 27 52, .read 27 53, .read 27 54, .read 27 55, .read 27 56, .read 27 57, .read 27 58, .read 27 59, .read 27 60, .read 27 61, .read 27 62, .read 27 63, .read 27 64, .read 27 65, .read 27 66, .read 27 67, .read 27 68, .read 27 69, .read 27 70, .read 27 71, .read 27 72, .read 27 73, .read 27 74, .read 27 75, .read 27 76, .read 27 77, .read 27 78, .read 27 79, .lost, .lost]
theorem check25 : checkAll source sdxl Convert.Spec.sdxlKohya sdxlLost SdxlSgm.diffuser16 cert25 = true := by kernel_rfl
theorem fresh25 : fresh cert25 213189172957257929911609185894834863004820710416763381093700679080412054524097741365798366946606751270711119481470444250446433239523957406000788932543129210850611171838411848952039222946269740587122678913282490846560252108724541658139009912851985578593009421686259423786613616924937701209182306582942331075675272252567497829963605021316237131344833349587146526666638529849462766196107705386731370305607902484564255079451165236714421944570841773248091927244837645206350927041133664925531640743879310603165744135663053450447200210246324731426936006053962657963890372441574046092909682996924188004139145757060181992354107152176934835568288966848464075164531014653020648739060297222729311781751922475949317214957297068635538936478135747040505276028320518252309778621591536829334421951932944447953220691154170120333019633621161694055942255901826588675821073653282028094400429464096345795086879403055511858748931286002402317975855743911662423436917292417158892380620766160076392242976898767290333585498475592332774740226500034914754232320 276735368254902094394184938932692311953114349567811830374807923737254088119543108521848534309159264813712444089309503493135122968082411490525886406796166284993023281409425195759825619514571367032700181929876199953371688014762489844044154846604445097229031752050768209391524164785771793028256136879815250080946710233064286981903372600521105161408398220758350833510878745938825541503492118698181636646169521128631783335335924291721521835309903887251000780458663116313609409771829955017066593870661589004899957157032883187038869247183930673115522055714531874002006387541421989823437039573064595625234507398112927179141138420472512936798215033248997775569526021910529666741760749099139384938828205148258000007911983693559676355729958598752797826322175389928777657125421336291143347620480560915261181909011454059647710963603208015995298105562623868809343106596394346752469861868466188658753827138635328836070280594283175853240220353252791947720270702927398231803051742406542326107198228287423573040504656609565210144325785863899215125294006641793241642458479089483251712 = true := by kernel_rfl
theorem below25 : cert25.all (fun c => (positions c).all fun p => decide (p.2 < 128)) = true := by kernel_rfl

/-- All certificates -/
noncomputable def certs : List (List Cert) := [cert0, cert1, cert2, cert3, cert4, cert5, cert6, cert7, cert8, cert9, cert10, cert11, cert12, cert13, cert14, cert15, cert16, cert17, cert18, cert19, cert20, cert21, cert22, cert23, cert24, cert25]

theorem allGood : AllGood source sdxl Convert.Spec.sdxlKohya sdxlLost target certs :=
  .cons check0 <| .cons check1 <| .cons check2 <| .cons check3 <| .cons check4 <| .cons check5 <| .cons check6 <| .cons check7 <| .cons check8 <| .cons check9 <| .cons check10 <| .cons check11 <| .cons check12 <| .cons check13 <| .cons check14 <| .cons check15 <| .cons check16 <| .cons check17 <| .cons check18 <| .cons check19 <| .cons check20 <| .cons check21 <| .cons check22 <| .cons check23 <| .cons check24 <| .cons check25 .nil

theorem allFresh : Fresh certs 0 276735368254902094394184938932692311953114349567811830374807923737254088119543108521848534309159264813712444089309503493135122968082411490525886406796166284993023281409425195759825619514571367032700181929876199953371688014762489844044154846604445097229031752050768209391524164785771793028256136879815250080946710233064286981903372600521105161408398220758350833510878745938825541503492118698181636646169521128631783335335924291721521835309903887251000780458663116313609409771829955017066593870661589004899957157032883187038869247183930673115522055714531874002006387541421989823437039573064595625234507398112927179141138420472512936798215033248997775569526021910529666741760749099139384938828205148258000007911983693559676355729958598752797826322175389928777657125421336291143347620480560915261181909011454059647710963603208015995298105562623868809343106596394346752469861868466188658753827138635328836070280594283175853240220353252791947720270702927398231803051742406542326107198228287423573040504656609565210144325785863899215125294006641793241642458479089483251712 :=
  .cons fresh0 <| .cons fresh1 <| .cons fresh2 <| .cons fresh3 <| .cons fresh4 <| .cons fresh5 <| .cons fresh6 <| .cons fresh7 <| .cons fresh8 <| .cons fresh9 <| .cons fresh10 <| .cons fresh11 <| .cons fresh12 <| .cons fresh13 <| .cons fresh14 <| .cons fresh15 <| .cons fresh16 <| .cons fresh17 <| .cons fresh18 <| .cons fresh19 <| .cons fresh20 <| .cons fresh21 <| .cons fresh22 <| .cons fresh23 <| .cons fresh24 <| .cons fresh25 (.nil _)

theorem increasing0 : increasing (key% "first_stage_model.decoder.up.2.block.1.norm1.weight") SdxlKohya.vae0 (key% "") = true := by kernel_rfl
theorem increasing1 : increasing (key% "first_stage_model.encoder.down.2.downsample.conv.weight") SdxlKohya.vae1 (key% "first_stage_model.decoder.up.2.block.1.norm1.weight") = true := by kernel_rfl
theorem increasing2 : increasing (key% "first_stage_model.quant_conv.weight") SdxlKohya.vae2 (key% "first_stage_model.encoder.down.2.downsample.conv.weight") = true := by kernel_rfl
theorem increasing3 : increasing (key% "te1.text_model.encoder.layers.4.layer_norm1.bias") SdxlKohya.clip_l0 (key% "first_stage_model.quant_conv.weight") = true := by kernel_rfl
theorem increasing4 : increasing (key% "te1.text_model.final_layer_norm.weight") SdxlKohya.clip_l1 (key% "te1.text_model.encoder.layers.4.layer_norm1.bias") = true := by kernel_rfl
theorem increasing5 : increasing (key% "te2.text_model.encoder.layers.14.layer_norm1.weight") SdxlKohya.clip_g0 (key% "te1.text_model.final_layer_norm.weight") = true := by kernel_rfl
theorem increasing6 : increasing (key% "te2.text_model.encoder.layers.2.mlp.fc1.weight") SdxlKohya.clip_g1 (key% "te2.text_model.encoder.layers.14.layer_norm1.weight") = true := by kernel_rfl
theorem increasing7 : increasing (key% "te2.text_model.encoder.layers.25.self_attn.k_proj.weight") SdxlKohya.clip_g2 (key% "te2.text_model.encoder.layers.2.mlp.fc1.weight") = true := by kernel_rfl
theorem increasing8 : increasing (key% "te2.text_model.encoder.layers.30.self_attn.q_proj.weight") SdxlKohya.clip_g3 (key% "te2.text_model.encoder.layers.25.self_attn.k_proj.weight") = true := by kernel_rfl
theorem increasing9 : increasing (key% "te2.text_model.encoder.layers.9.layer_norm1.weight") SdxlKohya.clip_g4 (key% "te2.text_model.encoder.layers.30.self_attn.q_proj.weight") = true := by kernel_rfl
theorem increasing10 : increasing (key% "te2.text_projection.weight") SdxlKohya.clip_g5 (key% "te2.text_model.encoder.layers.9.layer_norm1.weight") = true := by kernel_rfl
theorem increasing11 : increasing (key% "unet.input_blocks.5.1.transformer_blocks.0.attn1.to_out.0.bias") SdxlKohya.diffuser0 (key% "te2.text_projection.weight") = true := by kernel_rfl
theorem increasing12 : increasing (key% "unet.input_blocks.7.1.transformer_blocks.2.attn1.to_out.0.bias") SdxlKohya.diffuser1 (key% "unet.input_blocks.5.1.transformer_blocks.0.attn1.to_out.0.bias") = true := by kernel_rfl
theorem increasing13 : increasing (key% "unet.input_blocks.7.1.transformer_blocks.7.attn1.to_out.0.bias") SdxlKohya.diffuser2 (key% "unet.input_blocks.7.1.transformer_blocks.2.attn1.to_out.0.bias") = true := by kernel_rfl
theorem increasing14 : increasing (key% "unet.input_blocks.8.1.transformer_blocks.1.attn2.to_k.weight") SdxlKohya.diffuser3 (key% "unet.input_blocks.7.1.transformer_blocks.7.attn1.to_out.0.bias") = true := by kernel_rfl
theorem increasing15 : increasing (key% "unet.input_blocks.8.1.transformer_blocks.6.attn2.to_k.weight") SdxlKohya.diffuser4 (key% "unet.input_blocks.8.1.transformer_blocks.1.attn2.to_k.weight") = true := by kernel_rfl
theorem increasing16 : increasing (key% "unet.middle_block.1.transformer_blocks.0.attn2.to_k.weight") SdxlKohya.diffuser5 (key% "unet.input_blocks.8.1.transformer_blocks.6.attn2.to_k.weight") = true := by kernel_rfl
theorem increasing17 : increasing (key% "unet.middle_block.1.transformer_blocks.5.attn2.to_k.weight") SdxlKohya.diffuser6 (key% "unet.middle_block.1.transformer_blocks.0.attn2.to_k.weight") = true := by kernel_rfl
theorem increasing18 : increasing (key% "unet.middle_block.2.in_layers.2.weight") SdxlKohya.diffuser7 (key% "unet.middle_block.1.transformer_blocks.5.attn2.to_k.weight") = true := by kernel_rfl
theorem increasing19 : increasing (key% "unet.output_blocks.0.1.transformer_blocks.3.ff.net.2.weight") SdxlKohya.diffuser8 (key% "unet.middle_block.2.in_layers.2.weight") = true := by kernel_rfl
theorem increasing20 : increasing (key% "unet.output_blocks.0.1.transformer_blocks.8.ff.net.2.weight") SdxlKohya.diffuser9 (key% "unet.output_blocks.0.1.transformer_blocks.3.ff.net.2.weight") = true := by kernel_rfl
theorem increasing21 : increasing (key% "unet.output_blocks.1.1.transformer_blocks.2.norm1.weight") SdxlKohya.diffuser10 (key% "unet.output_blocks.0.1.transformer_blocks.8.ff.net.2.weight") = true := by kernel_rfl
theorem increasing22 : increasing (key% "unet.output_blocks.1.1.transformer_blocks.7.norm1.weight") SdxlKohya.diffuser11 (key% "unet.output_blocks.1.1.transformer_blocks.2.norm1.weight") = true := by kernel_rfl
theorem increasing23 : increasing (key% "unet.output_blocks.2.1.transformer_blocks.1.norm2.weight") SdxlKohya.diffuser12 (key% "unet.output_blocks.1.1.transformer_blocks.7.norm1.weight") = true := by kernel_rfl
theorem increasing24 : increasing (key% "unet.output_blocks.2.1.transformer_blocks.6.norm2.weight") SdxlKohya.diffuser13 (key% "unet.output_blocks.2.1.transformer_blocks.1.norm2.weight") = true := by kernel_rfl
theorem increasing25 : increasing (key% "unet.output_blocks.3.1.transformer_blocks.0.norm2.weight") SdxlKohya.diffuser14 (key% "unet.output_blocks.2.1.transformer_blocks.6.norm2.weight") = true := by kernel_rfl
theorem increasing26 : increasing (key% "unet.output_blocks.5.1.transformer_blocks.0.attn1.to_out.0.bias") SdxlKohya.diffuser15 (key% "unet.output_blocks.3.1.transformer_blocks.0.norm2.weight") = true := by kernel_rfl
theorem increasing27 : increasing (key% "unet.time_embed.2.weight") SdxlKohya.diffuser16 (key% "unet.output_blocks.5.1.transformer_blocks.0.attn1.to_out.0.bias") = true := by kernel_rfl
theorem nodup : (source.flatten.map (·.key)).Nodup :=
  Increasing.nodup (.cons increasing0 <| .cons increasing1 <| .cons increasing2 <| .cons increasing3 <| .cons increasing4 <| .cons increasing5 <| .cons increasing6 <| .cons increasing7 <| .cons increasing8 <| .cons increasing9 <| .cons increasing10 <| .cons increasing11 <| .cons increasing12 <| .cons increasing13 <| .cons increasing14 <| .cons increasing15 <| .cons increasing16 <| .cons increasing17 <| .cons increasing18 <| .cons increasing19 <| .cons increasing20 <| .cons increasing21 <| .cons increasing22 <| .cons increasing23 <| .cons increasing24 <| .cons increasing25 <| .cons increasing26 <| .cons increasing27 (.nil _))

theorem covers : covered sdxlUnused 276735368254902094394184938932692311953114349567811830374807923737254088119543108521848534309159264813712444089309503493135122968082411490525886406796166284993023281409425195759825619514571367032700181929876199953371688014762489844044154846604445097229031752050768209391524164785771793028256136879815250080946710233064286981903372600521105161408398220758350833510878745938825541503492118698181636646169521128631783335335924291721521835309903887251000780458663116313609409771829955017066593870661589004899957157032883187038869247183930673115522055714531874002006387541421989823437039573064595625234507398112927179141138420472512936798215033248997775569526021910529666741760749099139384938828205148258000007911983693559676355729958598752797826322175389928777657125421336291143347620480560915261181909011454059647710963603208015995298105562623868809343106596394346752469861868466188658753827138635328836070280594283175853240220353252791947720270702927398231803051742406542326107198228287423573040504656609565210144325785863899215125294006641793241642458479089483251712 source 0 = true := by kernel_rfl

theorem below : ∀ c ∈ certs.flatten, ∀ p ∈ positions c, p.2 < 128 := by
  intro c hc p hp
  simp only [certs, List.flatten_cons, List.flatten_nil, List.mem_append, List.not_mem_nil, or_false] at hc
  rcases hc with hc | hc | hc | hc | hc | hc | hc | hc | hc | hc | hc | hc | hc | hc | hc | hc | hc | hc | hc | hc | hc | hc | hc | hc | hc | hc
  · exact of_decide_eq_true (List.all_eq_true.1 (List.all_eq_true.1 below0 c hc) p hp)
  · exact of_decide_eq_true (List.all_eq_true.1 (List.all_eq_true.1 below1 c hc) p hp)
  · exact of_decide_eq_true (List.all_eq_true.1 (List.all_eq_true.1 below2 c hc) p hp)
  · exact of_decide_eq_true (List.all_eq_true.1 (List.all_eq_true.1 below3 c hc) p hp)
  · exact of_decide_eq_true (List.all_eq_true.1 (List.all_eq_true.1 below4 c hc) p hp)
  · exact of_decide_eq_true (List.all_eq_true.1 (List.all_eq_true.1 below5 c hc) p hp)
  · exact of_decide_eq_true (List.all_eq_true.1 (List.all_eq_true.1 below6 c hc) p hp)
  · exact of_decide_eq_true (List.all_eq_true.1 (List.all_eq_true.1 below7 c hc) p hp)
  · exact of_decide_eq_true (List.all_eq_true.1 (List.all_eq_true.1 below8 c hc) p hp)
  · exact of_decide_eq_true (List.all_eq_true.1 (List.all_eq_true.1 below9 c hc) p hp)
  · exact of_decide_eq_true (List.all_eq_true.1 (List.all_eq_true.1 below10 c hc) p hp)
  · exact of_decide_eq_true (List.all_eq_true.1 (List.all_eq_true.1 below11 c hc) p hp)
  · exact of_decide_eq_true (List.all_eq_true.1 (List.all_eq_true.1 below12 c hc) p hp)
  · exact of_decide_eq_true (List.all_eq_true.1 (List.all_eq_true.1 below13 c hc) p hp)
  · exact of_decide_eq_true (List.all_eq_true.1 (List.all_eq_true.1 below14 c hc) p hp)
  · exact of_decide_eq_true (List.all_eq_true.1 (List.all_eq_true.1 below15 c hc) p hp)
  · exact of_decide_eq_true (List.all_eq_true.1 (List.all_eq_true.1 below16 c hc) p hp)
  · exact of_decide_eq_true (List.all_eq_true.1 (List.all_eq_true.1 below17 c hc) p hp)
  · exact of_decide_eq_true (List.all_eq_true.1 (List.all_eq_true.1 below18 c hc) p hp)
  · exact of_decide_eq_true (List.all_eq_true.1 (List.all_eq_true.1 below19 c hc) p hp)
  · exact of_decide_eq_true (List.all_eq_true.1 (List.all_eq_true.1 below20 c hc) p hp)
  · exact of_decide_eq_true (List.all_eq_true.1 (List.all_eq_true.1 below21 c hc) p hp)
  · exact of_decide_eq_true (List.all_eq_true.1 (List.all_eq_true.1 below22 c hc) p hp)
  · exact of_decide_eq_true (List.all_eq_true.1 (List.all_eq_true.1 below23 c hc) p hp)
  · exact of_decide_eq_true (List.all_eq_true.1 (List.all_eq_true.1 below24 c hc) p hp)
  · exact of_decide_eq_true (List.all_eq_true.1 (List.all_eq_true.1 below25 c hc) p hp)

theorem source_eq : source.flatten = SdxlKohya.table.entries := by
  simp [source, Table.entries, SdxlKohya.table, SdxlKohya.vae, SdxlKohya.clip_l, SdxlKohya.clip_g, SdxlKohya.diffuser]

theorem target_eq : target.flatten = SdxlSgm.table.entries := by
  simp [target, Table.entries, SdxlSgm.table, SdxlSgm.clip_l, SdxlSgm.clip_g, SdxlSgm.vae, SdxlSgm.diffuser]

end Verif.Data.CertSdxl
