import Verif.Data.Sd1Ldm
import Verif.Data.Sd1Kohya
import Verif.Proofs.ConvertLost

/-!
# Certificates for the conversion from `sd1-kohya` to `sd1-ldm`

Generated by tools/gen_certs.py, checked by the kernel.
-/
namespace Verif.Data.CertSd1
open Fast

/-- The chunks of the source -/
noncomputable def source : List (List Entry) := [Sd1Kohya.clip_l0, Sd1Kohya.clip_l1, Sd1Kohya.diffuser0, Sd1Kohya.diffuser1, Sd1Kohya.diffuser2, Sd1Kohya.diffuser3, Sd1Kohya.diffuser4, Sd1Kohya.diffuser5, Sd1Kohya.diffuser6, Sd1Kohya.vae0, Sd1Kohya.vae1, Sd1Kohya.vae2]
/-- The chunks of the target -/
noncomputable def target : List (List Entry) := [Sd1Ldm.clip_l0, Sd1Ldm.clip_l1, Sd1Ldm.vae0, Sd1Ldm.vae1, Sd1Ldm.vae2, Sd1Ldm.diffuser0, Sd1Ldm.diffuser1, Sd1Ldm.diffuser2, Sd1Ldm.diffuser3, Sd1Ldm.diffuser4, Sd1Ldm.diffuser5, Sd1Ldm.diffuser6, Sd1Ldm.ema0, Sd1Ldm.ema1, Sd1Ldm.ema2, Sd1Ldm.ema3, Sd1Ldm.ema4, Sd1Ldm.ema5, Sd1Ldm.ema6, Sd1Ldm.scheduler0]

noncomputable def cert0 : List Cert := [.read 0 0, .lost, .read 0 1, .read 0 2, .read 0 3, .read 0 4, .read 0 5, .read 0 6, .read 0 7, .read 0 8, .read 0 9, .read 0 10, .read 0 11, .read 0 12, .read 0 13, .read 0 14, .read 0 15, .read 0 16, .read 0 17, .read 0 18, .read 0 19, .read 0 20, .read 0 21, .read 0 22, .read 0 23, .read 0 24, .read 0 25, .read 0 26, .read 0 27, .read 0 28, .read 0 29, .read 0 30, .read 0 31, .read 0 32, .read 0 33, .read 0 34, .read 0 35, .read 0 36, .read 0 37, .read 0 38, .read 0 39, .read 0 40, .read 0 41, .read 0 42, .read 0 43, .read 0 44, .read 0 45, .read 0 46, .read 0 47, .read 0 48, .read 0 49, .read 0 50, .read 0 51, .read 0 52, .read 0 53, .read 0 54, .read 0 55, .read 0 56, .read 0 57, .read 0 58, .read 0 59, .read 0 60, .read 0 61, .read 0 62, .read 0 63, .read 0 64, .read 0 65, .read 0 66, .read 0 67, .read 0 68, .read 0 69, .read 0 70, .read 0 71, .read 0 72, .read 0 73, .read 0 74, .read 0 75, .read 0 76, .read 0 77, .read 0 78, .read 0 79, .read 0 80, .read 0 81, .read 0 82, .read 0 83, .read 0 84, .read 0 85, .read 0 86, .read 0 87, .read 0 88, .read 0 89, .read 0 90, .read 0 91, .read 0 92, .read 0 93, .read 0 94, .read 0 95, .read 0 96, .read 0 97, .read 0 98]
theorem check0 : checkAll source sd1 sd1Spec sd1Lost Sd1Ldm.clip_l0 cert0 = true := by kernel_rfl
theorem fresh0 : fresh cert0 0 633825300114114700748351602687 = true := by kernel_rfl
theorem below0 : cert0.all (fun c => (positions c).all fun p => decide (p.2 < 128)) = true := by kernel_rfl

noncomputable def cert1 : List Cert := [.read 0 99, .read 1 0, .read 1 1, .read 1 2, .read 1 3, .read 1 4, .read 1 5, .read 1 6, .read 1 7, .read 1 8, .read 1 9, .read 1 10, .read 1 11, .read 1 12, .read 1 13, .read 1 14, .read 1 15, .read 1 16, .read 1 17, .read 1 18, .read 1 19, .read 1 20, .read 1 21, .read 1 22, .read 1 23, .read 1 24, .read 1 25, .read 1 26, .read 1 27, .read 1 28, .read 1 29, .read 1 30, .read 1 31, .read 1 32, .read 1 33, .read 1 34, .read 1 35, .read 1 36, .read 1 37, .read 1 38, .read 1 39, .read 1 40, .read 1 41, .read 1 42, .read 1 43, .read 1 44, .read 1 45, .read 1 46, .read 1 47, .read 1 48, .read 1 49, .read 1 50, .read 1 51, .read 1 52, .read 1 53, .read 1 54, .read 1 55, .read 1 56, .read 1 57, .read 1 58, .read 1 59, .read 1 60, .read 1 61, .read 1 62, .read 1 63, .read 1 64, .read 1 65, .read 1 66, .read 1 67, .read 1 68, .read 1 69, .read 1 70, .read 1 71, .read 1 72, .read 1 73, .read 1 74, .read 1 75, .read 1 76, .read 1 77, .read 1 78, .read 1 79, .read 1 80, .read 1 81, .read 1 82, .read 1 83, .read 1 84, .read 1 85, .read 1 86, .read 1 87, .read 1 88, .read 1 89, .read 1 90, .read 1 91, .read 1 92, .read 1 93, .read 1 94, .read 1 95]
theorem check1 : checkAll source sd1 sd1Spec sd1Lost Sd1Ldm.clip_l1 cert1 = true := by kernel_rfl
theorem fresh1 : fresh cert1 633825300114114700748351602687 26959946667150639794667015086679348307983856559305427275168545243135 = true := by kernel_rfl
theorem below1 : cert1.all (fun c => (positions c).all fun p => decide (p.2 < 128)) = true := by kernel_rfl

noncomputable def cert2 : List Cert := [.read 9 0, .read 9 1, .read 9 4, .read 9 5, .conv1x1 9 8, .conv1x1 9 9, .lost, .lost, .conv1x1 9 10, .conv1x1 9 11, .conv1x1 9 12, .conv1x1 9 13, .conv1x1 9 14, .conv1x1 9 15, .read 9 16, .read 9 17, .read 9 18, .read 9 19, .read 9 20, .read 9 21, .read 9 22, .read 9 23, .read 9 24, .read 9 25, .read 9 26, .read 9 27, .read 9 28, .read 9 29, .read 9 30, .read 9 31, .read 9 2, .read 9 3, .read 10 12, .read 10 13, .read 10 14, .read 10 15, .read 10 16, .read 10 17, .read 10 18, .read 10 19, .read 10 20, .read 10 21, .read 10 22, .read 10 23, .read 10 24, .read 10 25, .read 10 26, .read 10 27, .read 10 28, .read 10 29, .read 10 30, .read 10 31, .read 10 32, .read 10 33, .read 10 34, .read 10 35, .read 10 36, .read 10 37, .read 9 84, .read 9 85, .read 9 86, .read 9 87, .read 9 88, .read 9 89, .read 9 90, .read 9 91, .read 9 92, .read 9 93, .read 9 94, .read 9 95, .read 9 96, .read 9 97, .read 9 98, .read 9 99, .read 10 0, .read 10 1, .read 10 2, .read 10 3, .read 10 4, .read 10 5, .read 10 6, .read 10 7, .read 10 8, .read 10 9, .read 10 10, .read 10 11, .read 9 58, .read 9 59, .read 9 60, .read 9 61, .read 9 62, .read 9 63, .read 9 64, .read 9 65, .read 9 66, .read 9 67, .read 9 68, .read 9 69, .read 9 70, .read 9 71]
theorem check2 : checkAll source sd1 sd1Spec sd1Lost Sd1Ldm.vae0 cert2 = true := by kernel_rfl
theorem fresh2 : fresh cert2 26959946667150639794667015086679348307983856559305427275168545243135 5721821234548028903990465642683819414258002006269468792242935867421000642913487501817846487344146425255013001072543313784836699177124481473764546806619470546399135074604585563445628797064403483349683090989645347271405258237019385184589281177635940494539830329739372030112353319037866415032760132836461538724353541990790189991584917525971834296036493810201029460246145296906986974321988043374854143 = true := by kernel_rfl
theorem below2 : cert2.all (fun c => (positions c).all fun p => decide (p.2 < 128)) = true := by kernel_rfl

noncomputable def cert3 : List Cert := [.read 9 72, .read 9 73, .read 9 74, .read 9 75, .read 9 76, .read 9 77, .read 9 78, .read 9 79, .read 9 80, .read 9 81, .read 9 82, .read 9 83, .read 9 32, .read 9 33, .read 9 34, .read 9 35, .read 9 36, .read 9 37, .read 9 38, .read 9 39, .read 9 40, .read 9 41, .read 9 42, .read 9 43, .read 9 44, .read 9 45, .read 9 46, .read 9 47, .read 9 48, .read 9 49, .read 9 50, .read 9 51, .read 9 52, .read 9 53, .read 9 54, .read 9 55, .read 9 56, .read 9 57, .read 10 38, .read 10 39, .read 10 42, .read 10 43, .read 10 46, .read 10 47, .read 10 48, .read 10 49, .read 10 50, .read 10 51, .read 10 52, .read 10 53, .read 10 54, .read 10 55, .read 10 56, .read 10 57, .read 10 58, .read 10 59, .read 10 60, .read 10 61, .read 10 44, .read 10 45, .read 10 64, .read 10 65, .read 10 66, .read 10 67, .read 10 68, .read 10 69, .read 10 70, .read 10 71, .read 10 72, .read 10 73, .read 10 74, .read 10 75, .read 10 76, .read 10 77, .read 10 78, .read 10 79, .read 10 80, .read 10 81, .read 10 62, .read 10 63, .read 10 84, .read 10 85, .read 10 86, .read 10 87, .read 10 88, .read 10 89, .read 10 90, .read 10 91, .read 10 92, .read 10 93, .read 10 94, .read 10 95, .read 10 96, .read 10 97, .read 10 98, .read 10 99, .read 11 0, .read 11 1, .read 10 82, .read 10 83]
theorem check3 : checkAll source sd1 sd1Spec sd1Lost Sd1Ldm.vae1 cert3 = true := by kernel_rfl
theorem fresh3 : fresh cert3 5721821234548028903990465642683819414258002006269468792242935867421000642913487501817846487344146425255013001072543313784836699177124481473764546806619470546399135074604585563445628797064403483349683090989645347271405258237019385184589281177635940494539830329739372030112353319037866415032760132836461538724353541990790189991584917525971834296036493810201029460246145296906986974321988043374854143 21249814838105479259907888391755065270955973947832178646831694308274236483292895137751630196741035539122406929553580665938033306275221093428693442059123181819082095105153883850489738132918650291340323349131725469791842937275286960257623986168461110359424933206154597502697347142268717194940588943807442491774690173115533725283329484255826012257919304680260330772790732642472079732552615718384235871736170317274968423026130943 = true := by kernel_rfl
theorem below3 : cert3.all (fun c => (positions c).all fun p => decide (p.2 < 128)) = true := by kernel_rfl

noncomputable def cert4 : List Cert := [.read 11 2, .read 11 3, .read 11 4, .read 11 5, .read 11 6, .read 11 7, .read 11 8, .read 11 9, .read 11 10, .read 11 11, .read 11 12, .read 11 13, .read 11 14, .read 11 15, .read 11 16, .read 11 17, .conv1x1 11 20, .conv1x1 11 21, .lost, .lost, .conv1x1 11 22, .conv1x1 11 23, .conv1x1 11 24, .conv1x1 11 25, .conv1x1 11 26, .conv1x1 11 27, .read 11 28, .read 11 29, .read 11 30, .read 11 31, .read 11 32, .read 11 33, .read 11 34, .read 11 35, .read 11 36, .read 11 37, .read 11 38, .read 11 39, .read 11 40, .read 11 41, .read 11 42, .read 11 43, .read 10 40, .read 10 41, .read 11 44, .read 11 45, .read 11 46, .read 11 47]
theorem check4 : checkAll source sd1 sd1Spec sd1Lost Sd1Ldm.vae2 cert4 = true := by kernel_rfl
theorem fresh4 : fresh cert4 21249814838105479259907888391755065270955973947832178646831694308274236483292895137751630196741035539122406929553580665938033306275221093428693442059123181819082095105153883850489738132918650291340323349131725469791842937275286960257623986168461110359424933206154597502697347142268717194940588943807442491774690173115533725283329484255826012257919304680260330772790732642472079732552615718384235871736170317274968423026130943 1993763704174195952192803050514225961399095788503128955651166464653173640098531395328916963188195396094721572852422406595979135368456649755030693412594035642553521899232455928492125056074319500230991541977662870534453515857993353010554611488018637760703544582158212171305527691669450267773412922558547875289706403213464306632330007456617038982384669335003161256205215609307664356832316809282853620902242917116982039708452302960139532500991 = true := by kernel_rfl
theorem below4 : cert4.all (fun c => (positions c).all fun p => decide (p.2 < 128)) = true := by kernel_rfl

noncomputable def cert5 : List Cert := [.read 2 0, .read 2 1, .read 2 68, .read 2 69, .read 2 64, .read 2 65, .read 2 60, .read 2 61, .read 2 66, .read 2 67, .read 2 62, .read 2 63, .read 2 6, .read 2 7, .read 2 8, .read 2 9, .read 2 10, .read 2 11, .read 2 12, .read 2 13, .read 2 14, .read 2 15, .read 2 16, .read 2 17, .read 2 18, .read 2 19, .read 2 20, .read 2 21, .read 2 22, .read 2 23, .read 2 24, .read 2 25, .read 2 26, .read 2 27, .read 2 28, .read 2 29, .read 2 30, .read 2 31, .read 4 40, .read 4 41, .read 4 36, .read 4 37, .read 4 32, .read 4 33, .read 4 38, .read 4 39, .read 4 34, .read 4 35, .read 4 50, .read 4 51, .read 4 46, .read 4 47, .read 4 42, .read 4 43, .read 4 48, .read 4 49, .read 4 44, .read 4 45, .read 2 78, .read 2 79, .read 2 74, .read 2 75, .read 2 70, .read 2 71, .read 2 76, .read 2 77, .read 2 72, .read 2 73, .read 2 32, .read 2 33, .read 2 34, .read 2 35, .read 2 36, .read 2 37, .read 2 38, .read 2 39, .read 2 40, .read 2 41, .read 2 42, .read 2 43, .read 2 44, .read 2 45, .read 2 46, .read 2 47, .read 2 48, .read 2 49, .read 2 50, .read 2 51, .read 2 52, .read 2 53, .read 2 54, .read 2 55, .read 2 56, .read 2 57, .read 2 58, .read 2 59, .read 3 44, .read 3 45, .read 3 40, .read 3 41]
theorem check5 : checkAll source sd1 sd1Spec sd1Lost Sd1Ldm.diffuser0 cert5 = true := by kernel_rfl
theorem fresh5 : fresh cert5 1993763704174195952192803050514225961399095788503128955651166464653173640098531395328916963188195396094721572852422406595979135368456649755030693412594035642553521899232455928492125056074319500230991541977662870534453515857993353010554611488018637760703544582158212171305527691669450267773412922558547875289706403213464306632330007456617038982384669335003161256205215609307664356832316809282853620902242917116982039708452302960139532500991 1993763704174195952192803050514225961399095788503128955651166464653173640098531395328916963188195396094721572852422406595979135368456649755030693412594035642553521899232455928492125056074319500230991541977662870534453515857993353010554611488018637760703544582158212171365911032880498359256364095879467279163811558679166741746157631119678825153010580396894048712239530820375083796697286906596054247789439497525099680695789673416362293198847 = true := by kernel_rfl
theorem below5 : cert5.all (fun c => (positions c).all fun p => decide (p.2 < 128)) = true := by kernel_rfl

noncomputable def cert6 : List Cert := [.read 3 34, .read 3 35, .read 3 42, .read 3 43, .read 3 36, .read 3 37, .read 3 38, .read 3 39, .read 2 80, .read 2 81, .read 2 82, .read 2 83, .read 2 84, .read 2 85, .read 2 86, .read 2 87, .read 2 88, .read 2 89, .read 2 90, .read 2 91, .read 2 92, .read 2 93, .read 2 94, .read 2 95, .read 2 96, .read 2 97, .read 2 98, .read 2 99, .read 3 0, .read 3 1, .read 3 2, .read 3 3, .read 3 4, .read 3 5, .read 3 54, .read 3 55, .read 3 50, .read 3 51, .read 3 46, .read 3 47, .read 3 52, .read 3 53, .read 3 48, .read 3 49, .read 3 6, .read 3 7, .read 3 8, .read 3 9, .read 3 10, .read 3 11, .read 3 12, .read 3 13, .read 3 14, .read 3 15, .read 3 16, .read 3 17, .read 3 18, .read 3 19, .read 3 20, .read 3 21, .read 3 22, .read 3 23, .read 3 24, .read 3 25, .read 3 26, .read 3 27, .read 3 28, .read 3 29, .read 3 30, .read 3 31, .read 3 32, .read 3 33, .read 4 20, .read 4 21, .read 4 16, .read 4 17, .read 4 10, .read 4 11, .read 4 18, .read 4 19, .read 4 12, .read 4 13, .read 4 14, .read 4 15, .read 3 56, .read 3 57, .read 3 58, .read 3 59, .read 3 60, .read 3 61, .read 3 62, .read 3 63, .read 3 64, .read 3 65, .read 3 66, .read 3 67, .read 3 68, .read 3 69, .read 3 70, .read 3 71]
theorem check6 : checkAll source sd1 sd1Spec sd1Lost Sd1Ldm.diffuser1 cert6 = true := by kernel_rfl
theorem fresh6 : fresh cert6 1993763704174195952192803050514225961399095788503128955651166464653173640098531395328916963188195396094721572852422406595979135368456649755030693412594035642553521899232455928492125056074319500230991541977662870534453515857993353010554611488018637760703544582158212171365911032880498359256364095879467279163811558679166741746157631119678825153010580396894048712239530820375083796697286906596054247789439497525099680695789673416362293198847 1993763704174195952192803050514225961399095788503128955651166464653173640098531395328916963188195396094721572852422406595979135368456649755030693412594035642553521899232455928492125056074319500230991541977662870534453515857993353010554611488018637760703544582158212171365911032936721052092833789445169232778999379332804894917482889153366578623141489641735607390892234957881681391453178943246937918928431119478826540578272534905396796588031 = true := by kernel_rfl
theorem below6 : cert6.all (fun c => (positions c).all fun p => decide (p.2 < 128)) = true := by kernel_rfl

noncomputable def cert7 : List Cert := [.read 3 72, .read 3 73, .read 3 74, .read 3 75, .read 3 76, .read 3 77, .read 3 78, .read 3 79, .read 3 80, .read 3 81, .read 4 30, .read 4 31, .read 4 26, .read 4 27, .read 4 22, .read 4 23, .read 4 28, .read 4 29, .read 4 24, .read 4 25, .read 3 82, .read 3 83, .read 3 84, .read 3 85, .read 3 86, .read 3 87, .read 3 88, .read 3 89, .read 3 90, .read 3 91, .read 3 92, .read 3 93, .read 3 94, .read 3 95, .read 3 96, .read 3 97, .read 3 98, .read 3 99, .read 4 0, .read 4 1, .read 4 2, .read 4 3, .read 4 4, .read 4 5, .read 4 6, .read 4 7, .read 4 8, .read 4 9, .read 4 86, .read 4 87, .read 4 82, .read 4 83, .read 4 78, .read 4 79, .read 4 84, .read 4 85, .read 4 80, .read 4 81, .read 4 52, .read 4 53, .read 4 54, .read 4 55, .read 4 56, .read 4 57, .read 4 58, .read 4 59, .read 4 60, .read 4 61, .read 4 62, .read 4 63, .read 4 64, .read 4 65, .read 4 66, .read 4 67, .read 4 68, .read 4 69, .read 4 70, .read 4 71, .read 4 72, .read 4 73, .read 4 74, .read 4 75, .read 4 76, .read 4 77, .read 4 96, .read 4 97, .read 4 92, .read 4 93, .read 4 88, .read 4 89, .read 4 94, .read 4 95, .read 4 90, .read 4 91, .read 2 2, .read 2 3, .read 2 4, .read 2 5, .read 5 12, .read 5 13]
theorem check7 : checkAll source sd1 sd1Spec sd1Lost Sd1Ldm.diffuser2 cert7 = true := by kernel_rfl
theorem fresh7 : fresh cert7 1993763704174195952192803050514225961399095788503128955651166464653173640098531395328916963188195396094721572852422406595979135368456649755030693412594035642553521899232455928492125056074319500230991541977662870534453515857993353010554611488018637760703544582158212171365911032936721052092833789445169232778999379332804894917482889153366578623141489641735607390892234957881681391453178943246937918928431119478826540578272534905396796588031 1993763704174195952192803050514225961399095788503128955651166464653173640098531395328916963188195396094721572852422406595979135368456649755030693412594035642553521899232455928492125056074319500230991541977662870534453515857993353010554611488074701031012890366108817422133162388175390666011693983735826514686888995920939686758086616235593149169945254537025087874413725550585068712981895589028471877164744122709540938843092440592636767633407 = true := by kernel_rfl
theorem below7 : cert7.all (fun c => (positions c).all fun p => decide (p.2 < 128)) = true := by kernel_rfl

noncomputable def cert8 : List Cert := [.read 5 8, .read 5 9, .read 5 2, .read 5 3, .read 5 10, .read 5 11, .read 5 4, .read 5 5, .read 5 6, .read 5 7, .read 5 24, .read 5 25, .read 5 20, .read 5 21, .read 5 14, .read 5 15, .read 5 22, .read 5 23, .read 5 16, .read 5 17, .read 5 18, .read 5 19, .read 8 72, .read 8 73, .read 8 68, .read 8 69, .read 8 62, .read 8 63, .read 8 70, .read 8 71, .read 8 64, .read 8 65, .read 8 66, .read 8 67, .read 7 98, .read 7 99, .read 8 0, .read 8 1, .read 8 2, .read 8 3, .read 8 4, .read 8 5, .read 8 6, .read 8 7, .read 8 8, .read 8 9, .read 8 10, .read 8 11, .read 8 12, .read 8 13, .read 8 14, .read 8 15, .read 8 16, .read 8 17, .read 8 18, .read 8 19, .read 8 20, .read 8 21, .read 8 22, .read 8 23, .read 8 84, .read 8 85, .read 8 80, .read 8 81, .read 8 74, .read 8 75, .read 8 82, .read 8 83, .read 8 76, .read 8 77, .read 8 78, .read 8 79, .read 8 24, .read 8 25, .read 8 26, .read 8 27, .read 8 28, .read 8 29, .read 8 30, .read 8 31, .read 8 32, .read 8 33, .read 8 34, .read 8 35, .read 8 36, .read 8 37, .read 8 38, .read 8 39, .read 8 40, .read 8 41, .read 8 42, .read 8 43, .read 8 44, .read 8 45, .read 8 46, .read 8 47, .read 8 48, .read 8 49, .read 5 36, .read 5 37]
theorem check8 : checkAll source sd1 sd1Spec sd1Lost Sd1Ldm.diffuser3 cert8 = true := by kernel_rfl
theorem fresh8 : fresh cert8 1993763704174195952192803050514225961399095788503128955651166464653173640098531395328916963188195396094721572852422406595979135368456649755030693412594035642553521899232455928492125056074319500230991541977662870534453515857993353010554611488074701031012890366108817422133162388175390666011693983735826514686888995920939686758086616235593149169945254537025087874413725550585068712981895589028471877164744122709540938843092440592636767633407 1993763704174195952192803050514225961399095788503128955651166464653173640098531395328916963188195396094735481828531035079782298464749810889045664886064314513574456534364035824246029100287815673533143631509892681950032501820573651937107877785928721202949730415544943897032641026936062265864134524317338226790812389726928934826500096652608021387272010426290343145855169894550097231994465488149319931060603905997340370696204873577610260512767 = true := by kernel_rfl
theorem below8 : cert8.all (fun c => (positions c).all fun p => decide (p.2 < 128)) = true := by kernel_rfl

noncomputable def cert9 : List Cert := [.read 5 32, .read 5 33, .read 5 26, .read 5 27, .read 5 34, .read 5 35, .read 5 28, .read 5 29, .read 5 30, .read 5 31, .read 5 38, .read 5 39, .read 6 28, .read 6 29, .read 6 24, .read 6 25, .read 6 18, .read 6 19, .read 6 26, .read 6 27, .read 6 20, .read 6 21, .read 6 22, .read 6 23, .read 5 40, .read 5 41, .read 5 42, .read 5 43, .read 5 44, .read 5 45, .read 5 46, .read 5 47, .read 5 48, .read 5 49, .read 5 50, .read 5 51, .read 5 52, .read 5 53, .read 5 54, .read 5 55, .read 5 56, .read 5 57, .read 5 58, .read 5 59, .read 5 60, .read 5 61, .read 5 62, .read 5 63, .read 5 64, .read 5 65, .read 6 40, .read 6 41, .read 6 36, .read 6 37, .read 6 30, .read 6 31, .read 6 38, .read 6 39, .read 6 32, .read 6 33, .read 6 34, .read 6 35, .read 5 66, .read 5 67, .read 5 68, .read 5 69, .read 5 70, .read 5 71, .read 5 72, .read 5 73, .read 5 74, .read 5 75, .read 5 76, .read 5 77, .read 5 78, .read 5 79, .read 5 80, .read 5 81, .read 5 82, .read 5 83, .read 5 84, .read 5 85, .read 5 86, .read 5 87, .read 5 88, .read 5 89, .read 5 90, .read 5 91, .read 6 52, .read 6 53, .read 6 48, .read 6 49, .read 6 42, .read 6 43, .read 6 50, .read 6 51, .read 6 44, .read 6 45, .read 6 46, .read 6 47]
theorem check9 : checkAll source sd1 sd1Spec sd1Lost Sd1Ldm.diffuser4 cert9 = true := by kernel_rfl
theorem fresh9 : fresh cert9 1993763704174195952192803050514225961399095788503128955651166464653173640098531395328916963188195396094735481828531035079782298464749810889045664886064314513574456534364035824246029100287815673533143631509892681950032501820573651937107877785928721202949730415544943897032641026936062265864134524317338226790812389726928934826500096652608021387272010426290343145855169894550097231994465488149319931060603905997340370696204873577610260512767 1993763704174195952192803050514225961399095788503128955651166464653173640098531395328916963188195396094735481828531035079782298464749810889045664886064314513574456534364035824246029100287815701500823238988613680352174166546325706174781052964665338425767249412571304778390662112621342709325456297288340632578583138419812662562221481929095100526521398069022020872697804094769888183184947133499159116166059206465315845199326545554445258719231 = true := by kernel_rfl
theorem below9 : cert9.all (fun c => (positions c).all fun p => decide (p.2 < 128)) = true := by kernel_rfl

noncomputable def cert10 : List Cert := [.read 5 92, .read 5 93, .read 5 94, .read 5 95, .read 5 96, .read 5 97, .read 5 98, .read 5 99, .read 6 0, .read 6 1, .read 6 2, .read 6 3, .read 6 4, .read 6 5, .read 6 6, .read 6 7, .read 6 8, .read 6 9, .read 6 10, .read 6 11, .read 6 12, .read 6 13, .read 6 14, .read 6 15, .read 6 16, .read 6 17, .read 6 54, .read 6 55, .read 7 44, .read 7 45, .read 7 40, .read 7 41, .read 7 34, .read 7 35, .read 7 42, .read 7 43, .read 7 36, .read 7 37, .read 7 38, .read 7 39, .read 6 56, .read 6 57, .read 6 58, .read 6 59, .read 6 60, .read 6 61, .read 6 62, .read 6 63, .read 6 64, .read 6 65, .read 6 66, .read 6 67, .read 6 68, .read 6 69, .read 6 70, .read 6 71, .read 6 72, .read 6 73, .read 6 74, .read 6 75, .read 6 76, .read 6 77, .read 6 78, .read 6 79, .read 6 80, .read 6 81, .read 7 56, .read 7 57, .read 7 52, .read 7 53, .read 7 46, .read 7 47, .read 7 54, .read 7 55, .read 7 48, .read 7 49, .read 7 50, .read 7 51, .read 6 82, .read 6 83, .read 6 84, .read 6 85, .read 6 86, .read 6 87, .read 6 88, .read 6 89, .read 6 90, .read 6 91, .read 6 92, .read 6 93, .read 6 94, .read 6 95, .read 6 96, .read 6 97, .read 6 98, .read 6 99, .read 7 0, .read 7 1, .read 7 2, .read 7 3]
theorem check10 : checkAll source sd1 sd1Spec sd1Lost Sd1Ldm.diffuser5 cert10 = true := by kernel_rfl
theorem fresh10 : fresh cert10 1993763704174195952192803050514225961399095788503128955651166464653173640098531395328916963188195396094735481828531035079782298464749810889045664886064314513574456534364035824246029100287815701500823238988613680352174166546325706174781052964665338425767249412571304778390662112621342709325456297288340632578583138419812662562221481929095100526521398069022020872697804094769888183184947133499159116166059206465315845199326545554445258719231 1993763704174195952192803050514225961399095788503128955651166464653173640098531395328916963188195396094735481828531035079782298464749810889045664886064466784096808628422057419925694348614843939027669463071443963982648143464559868872870954972902533408950666811438882675057245863146543472744994617172361739919683561423714604182842344072614363021381168396709909005696028493767076933032869160180778038840861694699827311460824050705320349007871 = true := by kernel_rfl
theorem below10 : cert10.all (fun c => (positions c).all fun p => decide (p.2 < 128)) = true := by kernel_rfl

noncomputable def cert11 : List Cert := [.read 7 4, .read 7 5, .read 7 6, .read 7 7, .read 7 68, .read 7 69, .read 7 64, .read 7 65, .read 7 58, .read 7 59, .read 7 66, .read 7 67, .read 7 60, .read 7 61, .read 7 62, .read 7 63, .read 7 8, .read 7 9, .read 7 10, .read 7 11, .read 7 12, .read 7 13, .read 7 14, .read 7 15, .read 7 16, .read 7 17, .read 7 18, .read 7 19, .read 7 20, .read 7 21, .read 7 22, .read 7 23, .read 7 24, .read 7 25, .read 7 26, .read 7 27, .read 7 28, .read 7 29, .read 7 30, .read 7 31, .read 7 32, .read 7 33, .read 7 70, .read 7 71, .read 8 60, .read 8 61, .read 8 56, .read 8 57, .read 8 50, .read 8 51, .read 8 58, .read 8 59, .read 8 52, .read 8 53, .read 8 54, .read 8 55, .read 7 72, .read 7 73, .read 7 74, .read 7 75, .read 7 76, .read 7 77, .read 7 78, .read 7 79, .read 7 80, .read 7 81, .read 7 82, .read 7 83, .read 7 84, .read 7 85, .read 7 86, .read 7 87, .read 7 88, .read 7 89, .read 7 90, .read 7 91, .read 7 92, .read 7 93, .read 7 94, .read 7 95, .read 7 96, .read 7 97, .read 4 98, .read 4 99, .read 5 0, .read 5 1]
theorem check11 : checkAll source sd1 sd1Spec sd1Lost Sd1Ldm.diffuser6 cert11 = true := by kernel_rfl
theorem fresh11 : fresh cert11 1993763704174195952192803050514225961399095788503128955651166464653173640098531395328916963188195396094735481828531035079782298464749810889045664886064466784096808628422057419925694348614843939027669463071443963982648143464559868872870954972902533408950666811438882675057245863146543472744994617172361739919683561423714604182842344072614363021381168396709909005696028493767076933032869160180778038840861694699827311460824050705320349007871 1993763704174195952192803050514225961399095788503128955651166464653173640098531395328916963188195396094735481829359872307075735446903279334027054478305103263256809922950643873739408227892964084770976443506556237282623926070929009200238188133873306316301764294278365559503814599219669303262211943225433433540196999152996758922264027301159809154560927360915167033271080432665157702378833970497453427224046275056272132377830037236099108044799 = true := by kernel_rfl
theorem below11 : cert11.all (fun c => (positions c).all fun p => decide (p.2 < 128)) = true := by kernel_rfl

noncomputable def cert12 : List Cert := [.lost, .lost, .lost, .lost, .lost, .lost, .lost, .lost, .lost, .lost, .lost, .lost, .lost, .lost, .lost, .lost, .lost, .lost, .lost, .lost, .lost, .lost, .lost, .lost, .lost, .lost, .lost, .lost, .lost, .lost, .lost, .lost, .lost, .lost, .lost, .lost, .lost, .lost, .lost, .lost, .lost, .lost, .lost, .lost, .lost, .lost, .lost, .lost, .lost, .lost, .lost, .lost, .lost, .lost, .lost, .lost, .lost, .lost, .lost, .lost, .lost, .lost, .lost, .lost, .lost, .lost, .lost, .lost, .lost, .lost, .lost, .lost, .lost, .lost, .lost, .lost, .lost, .lost, .lost, .lost, .lost, .lost, .lost, .lost, .lost, .lost, .lost, .lost, .lost, .lost, .lost, .lost, .lost, .lost, .lost, .lost, .lost, .lost, .lost, .lost]
theorem check12 : checkAll source sd1 sd1Spec sd1Lost Sd1Ldm.ema0 cert12 = true := by kernel_rfl
theorem fresh12 : fresh cert12 1993763704174195952192803050514225961399095788503128955651166464653173640098531395328916963188195396094735481829359872307075735446903279334027054478305103263256809922950643873739408227892964084770976443506556237282623926070929009200238188133873306316301764294278365559503814599219669303262211943225433433540196999152996758922264027301159809154560927360915167033271080432665157702378833970497453427224046275056272132377830037236099108044799 1993763704174195952192803050514225961399095788503128955651166464653173640098531395328916963188195396094735481829359872307075735446903279334027054478305103263256809922950643873739408227892964084770976443506556237282623926070929009200238188133873306316301764294278365559503814599219669303262211943225433433540196999152996758922264027301159809154560927360915167033271080432665157702378833970497453427224046275056272132377830037236099108044799 = true := by kernel_rfl
theorem below12 : cert12.all (fun c => (positions c).all fun p => decide (p.2 < 128)) = true := by kernel_rfl

noncomputable def cert13 : List Cert := [.lost, .lost, .lost, .lost, .lost, .lost, .lost, .lost, .lost, .lost, .lost, .lost, .lost, .lost, .lost, .lost, .lost, .lost, .lost, .lost, .lost, .lost, .lost, .lost, .lost, .lost, .lost, .lost, .lost, .lost, .lost, .lost, .lost, .lost, .lost, .lost, .lost, .lost, .lost, .lost, .lost, .lost, .lost, .lost, .lost, .lost, .lost, .lost, .lost, .lost, .lost, .lost, .lost, .lost, .lost, .lost, .lost, .lost, .lost, .lost, .lost, .lost, .lost, .lost, .lost, .lost, .lost, .lost, .lost, .lost, .lost, .lost, .lost, .lost, .lost, .lost, .lost, .lost, .lost, .lost, .lost, .lost, .lost, .lost, .lost, .lost, .lost, .lost, .lost, .lost, .lost, .lost, .lost, .lost, .lost, .lost, .lost, .lost, .lost, .lost]
theorem check13 : checkAll source sd1 sd1Spec sd1Lost Sd1Ldm.ema1 cert13 = true := by kernel_rfl
theorem fresh13 : fresh cert13 1993763704174195952192803050514225961399095788503128955651166464653173640098531395328916963188195396094735481829359872307075735446903279334027054478305103263256809922950643873739408227892964084770976443506556237282623926070929009200238188133873306316301764294278365559503814599219669303262211943225433433540196999152996758922264027301159809154560927360915167033271080432665157702378833970497453427224046275056272132377830037236099108044799 1993763704174195952192803050514225961399095788503128955651166464653173640098531395328916963188195396094735481829359872307075735446903279334027054478305103263256809922950643873739408227892964084770976443506556237282623926070929009200238188133873306316301764294278365559503814599219669303262211943225433433540196999152996758922264027301159809154560927360915167033271080432665157702378833970497453427224046275056272132377830037236099108044799 = true := by kernel_rfl
theorem below13 : cert13.all (fun c => (positions c).all fun p => decide (p.2 < 128)) = true := by kernel_rfl

noncomputable def cert14 : List Cert := [.lost, .lost, .lost, .lost, .lost, .lost, .lost, .lost, .lost, .lost, .lost, .lost, .lost, .lost, .lost, .lost, .lost, .lost, .lost, .lost, .lost, .lost, .lost, .lost, .lost, .lost, .lost, .lost, .lost, .lost, .lost, .lost, .lost, .lost, .lost, .lost, .lost, .lost, .lost, .lost, .lost, .lost, .lost, .lost, .lost, .lost, .lost, .lost, .lost, .lost, .lost, .lost, .lost, .lost, .lost, .lost, .lost, .lost, .lost, .lost, .lost, .lost, .lost, .lost, .lost, .lost, .lost, .lost, .lost, .lost, .lost, .lost, .lost, .lost, .lost, .lost, .lost, .lost, .lost, .lost, .lost, .lost, .lost, .lost, .lost, .lost, .lost, .lost, .lost, .lost, .lost, .lost, .lost, .lost, .lost, .lost, .lost, .lost, .lost, .lost]
theorem check14 : checkAll source sd1 sd1Spec sd1Lost Sd1Ldm.ema2 cert14 = true := by kernel_rfl
theorem fresh14 : fresh cert14 1993763704174195952192803050514225961399095788503128955651166464653173640098531395328916963188195396094735481829359872307075735446903279334027054478305103263256809922950643873739408227892964084770976443506556237282623926070929009200238188133873306316301764294278365559503814599219669303262211943225433433540196999152996758922264027301159809154560927360915167033271080432665157702378833970497453427224046275056272132377830037236099108044799 1993763704174195952192803050514225961399095788503128955651166464653173640098531395328916963188195396094735481829359872307075735446903279334027054478305103263256809922950643873739408227892964084770976443506556237282623926070929009200238188133873306316301764294278365559503814599219669303262211943225433433540196999152996758922264027301159809154560927360915167033271080432665157702378833970497453427224046275056272132377830037236099108044799 = true := by kernel_rfl
theorem below14 : cert14.all (fun c => (positions c).all fun p => decide (p.2 < 128)) = true := by kernel_rfl

noncomputable def cert15 : List Cert := [.lost, .lost, .lost, .lost, .lost, .lost, .lost, .lost, .lost, .lost, .lost, .lost, .lost, .lost, .lost, .lost, .lost, .lost, .lost, .lost, .lost, .lost, .lost, .lost, .lost, .lost, .lost, .lost, .lost, .lost, .lost, .lost, .lost, .lost, .lost, .lost, .lost, .lost, .lost, .lost, .lost, .lost, .lost, .lost, .lost, .lost, .lost, .lost, .lost, .lost, .lost, .lost, .lost, .lost, .lost, .lost, .lost, .lost, .lost, .lost, .lost, .lost, .lost, .lost, .lost, .lost, .lost, .lost, .lost, .lost, .lost, .lost, .lost, .lost, .lost, .lost, .lost, .lost, .lost, .lost, .lost, .lost, .lost, .lost, .lost, .lost, .lost, .lost, .lost, .lost, .lost, .lost, .lost, .lost, .lost, .lost, .lost, .lost, .lost, .lost]
theorem check15 : checkAll source sd1 sd1Spec sd1Lost Sd1Ldm.ema3 cert15 = true := by kernel_rfl
theorem fresh15 : fresh cert15 1993763704174195952192803050514225961399095788503128955651166464653173640098531395328916963188195396094735481829359872307075735446903279334027054478305103263256809922950643873739408227892964084770976443506556237282623926070929009200238188133873306316301764294278365559503814599219669303262211943225433433540196999152996758922264027301159809154560927360915167033271080432665157702378833970497453427224046275056272132377830037236099108044799 1993763704174195952192803050514225961399095788503128955651166464653173640098531395328916963188195396094735481829359872307075735446903279334027054478305103263256809922950643873739408227892964084770976443506556237282623926070929009200238188133873306316301764294278365559503814599219669303262211943225433433540196999152996758922264027301159809154560927360915167033271080432665157702378833970497453427224046275056272132377830037236099108044799 = true := by kernel_rfl
theorem below15 : cert15.all (fun c => (positions c).all fun p => decide (p.2 < 128)) = true := by kernel_rfl

noncomputable def cert16 : List Cert := [.lost, .lost, .lost, .lost, .lost, .lost, .lost, .lost, .lost, .lost, .lost, .lost, .lost, .lost, .lost, .lost, .lost, .lost, .lost, .lost, .lost, .lost, .lost, .lost, .lost, .lost, .lost, .lost, .lost, .lost, .lost, .lost, .lost, .lost, .lost, .lost, .lost, .lost, .lost, .lost, .lost, .lost, .lost, .lost, .lost, .lost, .lost, .lost, .lost, .lost, .lost, .lost, .lost, .lost, .lost, .lost, .lost, .lost, .lost, .lost, .lost, .lost, .lost, .lost, .lost, .lost, .lost, .lost, .lost, .lost, .lost, .lost, .lost, .lost, .lost, .lost, .lost, .lost, .lost, .lost, .lost, .lost, .lost, .lost, .lost, .lost, .lost, .lost, .lost, .lost, .lost, .lost, .lost, .lost, .lost, .lost, .lost, .lost, .lost, .lost]
theorem check16 : checkAll source sd1 sd1Spec sd1Lost Sd1Ldm.ema4 cert16 = true := by kernel_rfl
theorem fresh16 : fresh cert16 1993763704174195952192803050514225961399095788503128955651166464653173640098531395328916963188195396094735481829359872307075735446903279334027054478305103263256809922950643873739408227892964084770976443506556237282623926070929009200238188133873306316301764294278365559503814599219669303262211943225433433540196999152996758922264027301159809154560927360915167033271080432665157702378833970497453427224046275056272132377830037236099108044799 1993763704174195952192803050514225961399095788503128955651166464653173640098531395328916963188195396094735481829359872307075735446903279334027054478305103263256809922950643873739408227892964084770976443506556237282623926070929009200238188133873306316301764294278365559503814599219669303262211943225433433540196999152996758922264027301159809154560927360915167033271080432665157702378833970497453427224046275056272132377830037236099108044799 = true := by kernel_rfl
theorem below16 : cert16.all (fun c => (positions c).all fun p => decide (p.2 < 128)) = true := by kernel_rfl

noncomputable def cert17 : List Cert := [.lost, .lost, .lost, .lost, .lost, .lost, .lost, .lost, .lost, .lost, .lost, .lost, .lost, .lost, .lost, .lost, .lost, .lost, .lost, .lost, .lost, .lost, .lost, .lost, .lost, .lost, .lost, .lost, .lost, .lost, .lost, .lost, .lost, .lost, .lost, .lost, .lost, .lost, .lost, .lost, .lost, .lost, .lost, .lost, .lost, .lost, .lost, .lost, .lost, .lost, .lost, .lost, .lost, .lost, .lost, .lost, .lost, .lost, .lost, .lost, .lost, .lost, .lost, .lost, .lost, .lost, .lost, .lost, .lost, .lost, .lost, .lost, .lost, .lost, .lost, .lost, .lost, .lost, .lost, .lost, .lost, .lost, .lost, .lost, .lost, .lost, .lost, .lost, .lost, .lost, .lost, .lost, .lost, .lost, .lost, .lost, .lost, .lost, .lost, .lost]
theorem check17 : checkAll source sd1 sd1Spec sd1Lost Sd1Ldm.ema5 cert17 = true := by kernel_rfl
theorem fresh17 : fresh cert17 1993763704174195952192803050514225961399095788503128955651166464653173640098531395328916963188195396094735481829359872307075735446903279334027054478305103263256809922950643873739408227892964084770976443506556237282623926070929009200238188133873306316301764294278365559503814599219669303262211943225433433540196999152996758922264027301159809154560927360915167033271080432665157702378833970497453427224046275056272132377830037236099108044799 1993763704174195952192803050514225961399095788503128955651166464653173640098531395328916963188195396094735481829359872307075735446903279334027054478305103263256809922950643873739408227892964084770976443506556237282623926070929009200238188133873306316301764294278365559503814599219669303262211943225433433540196999152996758922264027301159809154560927360915167033271080432665157702378833970497453427224046275056272132377830037236099108044799 = true := by kernel_rfl
theorem below17 : cert17.all (fun c => (positions c).all fun p => decide (p.2 < 128)) = true := by kernel_rfl

noncomputable def cert18 : List Cert := [.lost, .lost, .lost, .lost, .lost, .lost, .lost, .lost, .lost, .lost, .lost, .lost, .lost, .lost, .lost, .lost, .lost, .lost, .lost, .lost, .lost, .lost, .lost, .lost, .lost, .lost, .lost, .lost, .lost, .lost, .lost, .lost, .lost, .lost, .lost, .lost, .lost, .lost, .lost, .lost, .lost, .lost, .lost, .lost, .lost, .lost, .lost, .lost, .lost, .lost, .lost, .lost, .lost, .lost, .lost, .lost, .lost, .lost, .lost, .lost, .lost, .lost, .lost, .lost, .lost, .lost, .lost, .lost, .lost, .lost, .lost, .lost, .lost, .lost, .lost, .lost, .lost, .lost, .lost, .lost, .lost, .lost, .lost, .lost, .lost, .lost, .lost, .lost]
theorem check18 : checkAll source sd1 sd1Spec sd1Lost Sd1Ldm.ema6 cert18 = true := by kernel_rfl
theorem fresh18 : fresh cert18 1993763704174195952192803050514225961399095788503128955651166464653173640098531395328916963188195396094735481829359872307075735446903279334027054478305103263256809922950643873739408227892964084770976443506556237282623926070929009200238188133873306316301764294278365559503814599219669303262211943225433433540196999152996758922264027301159809154560927360915167033271080432665157702378833970497453427224046275056272132377830037236099108044799 1993763704174195952192803050514225961399095788503128955651166464653173640098531395328916963188195396094735481829359872307075735446903279334027054478305103263256809922950643873739408227892964084770976443506556237282623926070929009200238188133873306316301764294278365559503814599219669303262211943225433433540196999152996758922264027301159809154560927360915167033271080432665157702378833970497453427224046275056272132377830037236099108044799 = true := by kernel_rfl
theorem below18 : cert18.all (fun c => (positions c).all fun p => decide (p.2 < 128)) = true := by kernel_rfl

noncomputable def cert19 : List Cert := [.lost, .lost, .lost, .lost, .lost, .lost, .lost, .lost, .lost, .lost, .lost, .lost]
theorem check19 : checkAll source sd1 sd1Spec sd1Lost Sd1Ldm.scheduler0 cert19 = true := by kernel_rfl
theorem fresh19 : fresh cert19 1993763704174195952192803050514225961399095788503128955651166464653173640098531395328916963188195396094735481829359872307075735446903279334027054478305103263256809922950643873739408227892964084770976443506556237282623926070929009200238188133873306316301764294278365559503814599219669303262211943225433433540196999152996758922264027301159809154560927360915167033271080432665157702378833970497453427224046275056272132377830037236099108044799 1993763704174195952192803050514225961399095788503128955651166464653173640098531395328916963188195396094735481829359872307075735446903279334027054478305103263256809922950643873739408227892964084770976443506556237282623926070929009200238188133873306316301764294278365559503814599219669303262211943225433433540196999152996758922264027301159809154560927360915167033271080432665157702378833970497453427224046275056272132377830037236099108044799 = true := by kernel_rfl
theorem below19 : cert19.all (fun c => (positions c).all fun p => decide (p.2 < 128)) = true := by kernel_rfl

/-- All certificates -/
noncomputable def certs : List (List Cert) := [cert0, cert1, cert2, cert3, cert4, cert5, cert6, cert7, cert8, cert9, cert10, cert11, cert12, cert13, cert14, cert15, cert16, cert17, cert18, cert19]

theorem allGood : AllGood source sd1 sd1Spec sd1Lost target certs :=
  .cons check0 <| .cons check1 <| .cons check2 <| .cons check3 <| .cons check4 <| .cons check5 <| .cons check6 <| .cons check7 <| .cons check8 <| .cons check9 <| .cons check10 <| .cons check11 <| .cons check12 <| .cons check13 <| .cons check14 <| .cons check15 <| .cons check16 <| .cons check17 <| .cons check18 <| .cons check19 .nil

theorem allFresh : Fresh certs 0 1993763704174195952192803050514225961399095788503128955651166464653173640098531395328916963188195396094735481829359872307075735446903279334027054478305103263256809922950643873739408227892964084770976443506556237282623926070929009200238188133873306316301764294278365559503814599219669303262211943225433433540196999152996758922264027301159809154560927360915167033271080432665157702378833970497453427224046275056272132377830037236099108044799 :=
  .cons fresh0 <| .cons fresh1 <| .cons fresh2 <| .cons fresh3 <| .cons fresh4 <| .cons fresh5 <| .cons fresh6 <| .cons fresh7 <| .cons fresh8 <| .cons fresh9 <| .cons fresh10 <| .cons fresh11 <| .cons fresh12 <| .cons fresh13 <| .cons fresh14 <| .cons fresh15 <| .cons fresh16 <| .cons fresh17 <| .cons fresh18 <| .cons fresh19 (.nil _)

theorem increasing0 : increasing (key% "te.text_model.encoder.layers.4.layer_norm1.weight") Sd1Kohya.clip_l0 (key% "") = true := by kernel_rfl
theorem increasing1 : increasing (key% "te.text_model.final_layer_norm.weight") Sd1Kohya.clip_l1 (key% "te.text_model.encoder.layers.4.layer_norm1.weight") = true := by kernel_rfl
theorem increasing2 : increasing (key% "unet.down_blocks.1.attentions.0.transformer_blocks.0.ff.net.2.weight") Sd1Kohya.diffuser0 (key% "te.text_model.final_layer_norm.weight") = true := by kernel_rfl
theorem increasing3 : increasing (key% "unet.down_blocks.2.attentions.1.transformer_blocks.0.ff.net.0.proj.weight") Sd1Kohya.diffuser1 (key% "unet.down_blocks.1.attentions.0.transformer_blocks.0.ff.net.2.weight") = true := by kernel_rfl
theorem increasing4 : increasing (key% "unet.time_embedding.linear_1.weight") Sd1Kohya.diffuser2 (key% "unet.down_blocks.2.attentions.1.transformer_blocks.0.ff.net.0.proj.weight") = true := by kernel_rfl
theorem increasing5 : increasing (key% "unet.up_blocks.1.attentions.2.transformer_blocks.0.attn1.to_out.0.bias") Sd1Kohya.diffuser3 (key% "unet.time_embedding.linear_1.weight") = true := by kernel_rfl
theorem increasing6 : increasing (key% "unet.up_blocks.2.attentions.1.transformer_blocks.0.ff.net.0.proj.weight") Sd1Kohya.diffuser4 (key% "unet.up_blocks.1.attentions.2.transformer_blocks.0.attn1.to_out.0.bias") = true := by kernel_rfl
theorem increasing7 : increasing (key% "unet.up_blocks.3.attentions.1.norm.weight") Sd1Kohya.diffuser5 (key% "unet.up_blocks.2.attentions.1.transformer_blocks.0.ff.net.0.proj.weight") = true := by kernel_rfl
theorem increasing8 : increasing (key% "unet.up_blocks.3.resnets.2.time_emb_proj.weight") Sd1Kohya.diffuser6 (key% "unet.up_blocks.3.attentions.1.norm.weight") = true := by kernel_rfl
theorem increasing9 : increasing (key% "vae.decoder.up_blocks.2.resnets.1.norm1.weight") Sd1Kohya.vae0 (key% "unet.up_blocks.3.resnets.2.time_emb_proj.weight") = true := by kernel_rfl
theorem increasing10 : increasing (key% "vae.encoder.down_blocks.2.resnets.1.norm1.weight") Sd1Kohya.vae1 (key% "vae.decoder.up_blocks.2.resnets.1.norm1.weight") = true := by kernel_rfl
theorem increasing11 : increasing (key% "vae.quant_conv.weight") Sd1Kohya.vae2 (key% "vae.encoder.down_blocks.2.resnets.1.norm1.weight") = true := by kernel_rfl
theorem nodup : (source.flatten.map (·.key)).Nodup :=
  Increasing.nodup (.cons increasing0 <| .cons increasing1 <| .cons increasing2 <| .cons increasing3 <| .cons increasing4 <| .cons increasing5 <| .cons increasing6 <| .cons increasing7 <| .cons increasing8 <| .cons increasing9 <| .cons increasing10 <| .cons increasing11 (.nil _))

theorem covers : covered sd1Unused 1993763704174195952192803050514225961399095788503128955651166464653173640098531395328916963188195396094735481829359872307075735446903279334027054478305103263256809922950643873739408227892964084770976443506556237282623926070929009200238188133873306316301764294278365559503814599219669303262211943225433433540196999152996758922264027301159809154560927360915167033271080432665157702378833970497453427224046275056272132377830037236099108044799 source 0 = true := by kernel_rfl

theorem below : ∀ c ∈ certs.flatten, ∀ p ∈ positions c, p.2 < 128 := by
  intro c hc p hp
  simp only [certs, List.flatten_cons, List.flatten_nil, List.mem_append, List.not_mem_nil, or_false] at hc
  rcases hc with hc | hc | hc | hc | hc | hc | hc | hc | hc | hc | hc | hc | hc | hc | hc | hc | hc | hc | hc | hc
  · exact of_decide_eq_true (List.all_eq_true.1 (List.all_eq_true.1 below0 c hc) p hp)
  · exact of_decide_eq_true (List.all_eq_true.1 (List.all_eq_true.1 below1 c hc) p hp)
  · exact of_decide_eq_true (List.all_eq_true.1 (List.all_eq_true.1 below2 c hc) p hp)
  · exact of_decide_eq_true (List.all_eq_true.1 (List.all_eq_true.1 below3 c hc) p hp)
  · exact of_decide_eq_true (List.all_eq_true.1 (List.all_eq_true.1 below4 c hc) p hp)
  · exact of_decide_eq_true (List.all_eq_true.1 (List.all_eq_true.1 below5 c hc) p hp)
  · exact of_decide_eq_true (List.all_eq_true.1 (List.all_eq_true.1 below6 c hc) p hp)
  · exact of_decide_eq_true (List.all_eq_true.1 (List.all_eq_true.1 below7 c hc) p hp)
  · exact of_decide_eq_true (List.all_eq_true.1 (List.all_eq_true.1 below8 c hc) p hp)
  · exact of_decide_eq_true (List.all_eq_true.1 (List.all_eq_true.1 below9 c hc) p hp)
  · exact of_decide_eq_true (List.all_eq_true.1 (List.all_eq_true.1 below10 c hc) p hp)
  · exact of_decide_eq_true (List.all_eq_true.1 (List.all_eq_true.1 below11 c hc) p hp)
  · exact of_decide_eq_true (List.all_eq_true.1 (List.all_eq_true.1 below12 c hc) p hp)
  · exact of_decide_eq_true (List.all_eq_true.1 (List.all_eq_true.1 below13 c hc) p hp)
  · exact of_decide_eq_true (List.all_eq_true.1 (List.all_eq_true.1 below14 c hc) p hp)
  · exact of_decide_eq_true (List.all_eq_true.1 (List.all_eq_true.1 below15 c hc) p hp)
  · exact of_decide_eq_true (List.all_eq_true.1 (List.all_eq_true.1 below16 c hc) p hp)
  · exact of_decide_eq_true (List.all_eq_true.1 (List.all_eq_true.1 below17 c hc) p hp)
  · exact of_decide_eq_true (List.all_eq_true.1 (List.all_eq_true.1 below18 c hc) p hp)
  · exact of_decide_eq_true (List.all_eq_true.1 (List.all_eq_true.1 below19 c hc) p hp)

theorem source_eq : source.flatten = Sd1Kohya.table.entries := by
  simp [source, Table.entries, Sd1Kohya.table, Sd1Kohya.clip_l, Sd1Kohya.diffuser, Sd1Kohya.vae]

theorem target_eq : target.flatten = Sd1Ldm.table.entries := by
  simp [target, Table.entries, Sd1Ldm.table, Sd1Ldm.clip_l, Sd1Ldm.vae, Sd1Ldm.diffuser, Sd1Ldm.ema, Sd1Ldm.scheduler]

end Verif.Data.CertSd1
