import Verif.Data.FluxFluxDiffuserOnly
import Verif.Data.FluxFlux
import Verif.Proofs.ConvertLost

/-!
# Certificates for the conversion from `flux-flux` to `flux-flux_diffuser_only`

Generated by tools/gen_certs.py, checked by the kernel.
-/
namespace Verif.Data.CertFlux
open Fast

/-- The chunks of the source -/
noncomputable def source : List (List Entry) := [FluxFlux.diffuser0, FluxFlux.diffuser1, FluxFlux.diffuser2, FluxFlux.diffuser3, FluxFlux.diffuser4, FluxFlux.diffuser5, FluxFlux.diffuser6, FluxFlux.diffuser7, FluxFlux.clip_l0, FluxFlux.clip_l1, FluxFlux.t5xxl0, FluxFlux.t5xxl1, FluxFlux.t5xxl2, FluxFlux.vae0, FluxFlux.vae1, FluxFlux.vae2]
/-- The chunks of the target -/
noncomputable def target : List (List Entry) := [FluxFluxDiffuserOnly.diffuser0, FluxFluxDiffuserOnly.diffuser1, FluxFluxDiffuserOnly.diffuser2, FluxFluxDiffuserOnly.diffuser3, FluxFluxDiffuserOnly.diffuser4, FluxFluxDiffuserOnly.diffuser5, FluxFluxDiffuserOnly.diffuser6, FluxFluxDiffuserOnly.diffuser7]

noncomputable def cert0 : List Cert := [.read 0 0, .read 0 1, .read 0 2, .read 0 3, .read 0 4, .read 0 5, .read 0 6, .read 0 7, .read 0 8, .read 0 9, .read 0 10, .read 0 11, .read 0 12, .read 0 13, .read 0 14, .read 0 15, .read 0 16, .read 0 17, .read 0 18, .read 0 19, .read 0 20, .read 0 21, .read 0 22, .read 0 23, .read 0 24, .read 0 25, .read 0 26, .read 0 27, .read 0 28, .read 0 29, .read 0 30, .read 0 31, .read 0 32, .read 0 33, .read 0 34, .read 0 35, .read 0 36, .read 0 37, .read 0 38, .read 0 39, .read 0 40, .read 0 41, .read 0 42, .read 0 43, .read 0 44, .read 0 45, .read 0 46, .read 0 47, .read 0 48, .read 0 49, .read 0 50, .read 0 51, .read 0 52, .read 0 53, .read 0 54, .read 0 55, .read 0 56, .read 0 57, .read 0 58, .read 0 59, .read 0 60, .read 0 61, .read 0 62, .read 0 63, .read 0 64, .read 0 65, .read 0 66, .read 0 67, .read 0 68, .read 0 69, .read 0 70, .read 0 71, .read 0 72, .read 0 73, .read 0 74, .read 0 75, .read 0 76, .read 0 77, .read 0 78, .read 0 79, .read 0 80, .read 0 81, .read 0 82, .read 0 83, .read 0 84, .read 0 85, .read 0 86, .read 0 87, .read 0 88, .read 0 89, .read 0 90, .read 0 91, .read 0 92, .read 0 93, .read 0 94, .read 0 95, .read 0 96, .read 0 97, .read 0 98, .read 0 99]
theorem check0 : checkAll source Convert.fluxToBackbone fluxSpec never FluxFluxDiffuserOnly.diffuser0 cert0 = true := by kernel_rfl
theorem fresh0 : fresh cert0 0 1267650600228229401496703205375 = true := by kernel_rfl
theorem below0 : cert0.all (fun c => (positions c).all fun p => decide (p.2 < 128)) = true := by kernel_rfl

noncomputable def cert1 : List Cert := [.read 1 0, .read 1 1, .read 1 2, .read 1 3, .read 1 4, .read 1 5, .read 1 6, .read 1 7, .read 1 8, .read 1 9, .read 1 10, .read 1 11, .read 1 12, .read 1 13, .read 1 14, .read 1 15, .read 1 16, .read 1 17, .read 1 18, .read 1 19, .read 1 20, .read 1 21, .read 1 22, .read 1 23, .read 1 24, .read 1 25, .read 1 26, .read 1 27, .read 1 28, .read 1 29, .read 1 30, .read 1 31, .read 1 32, .read 1 33, .read 1 34, .read 1 35, .read 1 36, .read 1 37, .read 1 38, .read 1 39, .read 1 40, .read 1 41, .read 1 42, .read 1 43, .read 1 44, .read 1 45, .read 1 46, .read 1 47, .read 1 48, .read 1 49, .read 1 50, .read 1 51, .read 1 52, .read 1 53, .read 1 54, .read 1 55, .read 1 56, .read 1 57, .read 1 58, .read 1 59, .read 1 60, .read 1 61, .read 1 62, .read 1 63, .read 1 64, .read 1 65, .read 1 66, .read 1 67, .read 1 68, .read 1 69, .read 1 70, .read 1 71, .read 1 72, .read 1 73, .read 1 74, .read 1 75, .read 1 76, .read 1 77, .read 1 78, .read 1 79, .read 1 80, .read 1 81, .read 1 82, .read 1 83, .read 1 84, .read 1 85, .read 1 86, .read 1 87, .read 1 88, .read 1 89, .read 1 90, .read 1 91, .read 1 92, .read 1 93, .read 1 94, .read 1 95, .read 1 96, .read 1 97, .read 1 98, .read 1 99]
theorem check1 : checkAll source Convert.fluxToBackbone fluxSpec never FluxFluxDiffuserOnly.diffuser1 cert1 = true := by kernel_rfl
theorem fresh1 : fresh cert1 1267650600228229401496703205375 431359146674410236714672241391973808412541022897414014491722698981375 = true := by kernel_rfl
theorem below1 : cert1.all (fun c => (positions c).all fun p => decide (p.2 < 128)) = true := by kernel_rfl

noncomputable def cert2 : List Cert := [.read 2 0, .read 2 1, .read 2 2, .read 2 3, .read 2 4, .read 2 5, .read 2 6, .read 2 7, .read 2 8, .read 2 9, .read 2 10, .read 2 11, .read 2 12, .read 2 13, .read 2 14, .read 2 15, .read 2 16, .read 2 17, .read 2 18, .read 2 19, .read 2 20, .read 2 21, .read 2 22, .read 2 23, .read 2 24, .read 2 25, .read 2 26, .read 2 27, .read 2 28, .read 2 29, .read 2 30, .read 2 31, .read 2 32, .read 2 33, .read 2 34, .read 2 35, .read 2 36, .read 2 37, .read 2 38, .read 2 39, .read 2 40, .read 2 41, .read 2 42, .read 2 43, .read 2 44, .read 2 45, .read 2 46, .read 2 47, .read 2 48, .read 2 49, .read 2 50, .read 2 51, .read 2 52, .read 2 53, .read 2 54, .read 2 55, .read 2 56, .read 2 57, .read 2 58, .read 2 59, .read 2 60, .read 2 61, .read 2 62, .read 2 63, .read 2 64, .read 2 65, .read 2 66, .read 2 67, .read 2 68, .read 2 69, .read 2 70, .read 2 71, .read 2 72, .read 2 73, .read 2 74, .read 2 75, .read 2 76, .read 2 77, .read 2 78, .read 2 79, .read 2 80, .read 2 81, .read 2 82, .read 2 83, .read 2 84, .read 2 85, .read 2 86, .read 2 87, .read 2 88, .read 2 89, .read 2 90, .read 2 91, .read 2 92, .read 2 93, .read 2 94, .read 2 95, .read 2 96, .read 2 97, .read 2 98, .read 2 99]
theorem check2 : checkAll source Convert.fluxToBackbone fluxSpec never FluxFluxDiffuserOnly.diffuser2 cert2 = true := by kernel_rfl
theorem fresh2 : fresh cert2 431359146674410236714672241391973808412541022897414014491722698981375 146783911423364576743092537299217772122174202258020831170911670054301767893409928175339143829531853508837375 = true := by kernel_rfl
theorem below2 : cert2.all (fun c => (positions c).all fun p => decide (p.2 < 128)) = true := by kernel_rfl

noncomputable def cert3 : List Cert := [.read 3 0, .read 3 1, .read 3 2, .read 3 3, .read 3 4, .read 3 5, .read 3 6, .read 3 7, .read 3 8, .read 3 9, .read 3 10, .read 3 11, .read 3 12, .read 3 13, .read 3 14, .read 3 15, .read 3 16, .read 3 17, .read 3 18, .read 3 19, .read 3 20, .read 3 21, .read 3 22, .read 3 23, .read 3 24, .read 3 25, .read 3 26, .read 3 27, .read 3 28, .read 3 29, .read 3 30, .read 3 31, .read 3 32, .read 3 33, .read 3 34, .read 3 35, .read 3 36, .read 3 37, .read 3 38, .read 3 39, .read 3 40, .read 3 41, .read 3 42, .read 3 43, .read 3 44, .read 3 45, .read 3 46, .read 3 47, .read 3 48, .read 3 49, .read 3 50, .read 3 51, .read 3 52, .read 3 53, .read 3 54, .read 3 55, .read 3 56, .read 3 57, .read 3 58, .read 3 59, .read 3 60, .read 3 61, .read 3 62, .read 3 63, .read 3 64, .read 3 65, .read 3 66, .read 3 67, .read 3 68, .read 3 69, .read 3 70, .read 3 71, .read 3 72, .read 3 73, .read 3 74, .read 3 75, .read 3 76, .read 3 77, .read 3 78, .read 3 79, .read 3 80, .read 3 81, .read 3 82, .read 3 83, .read 3 84, .read 3 85, .read 3 86, .read 3 87, .read 3 88, .read 3 89, .read 3 90, .read 3 91, .read 3 92, .read 3 93, .read 3 94, .read 3 95, .read 3 96, .read 3 97, .read 3 98, .read 3 99]
theorem check3 : checkAll source Convert.fluxToBackbone fluxSpec never FluxFluxDiffuserOnly.diffuser3 cert3 = true := by kernel_rfl
theorem fresh3 : fresh cert3 146783911423364576743092537299217772122174202258020831170911670054301767893409928175339143829531853508837375 49947976805055875702105555676651258885927959714850623950389460277500085853967958677514970186782537486840035455224501628247621839057337790419173375 = true := by kernel_rfl
theorem below3 : cert3.all (fun c => (positions c).all fun p => decide (p.2 < 128)) = true := by kernel_rfl

noncomputable def cert4 : List Cert := [.read 4 0, .read 4 1, .read 4 2, .read 4 3, .read 4 4, .read 4 5, .read 4 6, .read 4 7, .read 4 8, .read 4 9, .read 4 10, .read 4 11, .read 4 12, .read 4 13, .read 4 14, .read 4 15, .read 4 16, .read 4 17, .read 4 18, .read 4 19, .read 4 20, .read 4 21, .read 4 22, .read 4 23, .read 4 24, .read 4 25, .read 4 26, .read 4 27, .read 4 28, .read 4 29, .read 4 30, .read 4 31, .read 4 32, .read 4 33, .read 4 34, .read 4 35, .read 4 36, .read 4 37, .read 4 38, .read 4 39, .read 4 40, .read 4 41, .read 4 42, .read 4 43, .read 4 44, .read 4 45, .read 4 46, .read 4 47, .read 4 48, .read 4 49, .read 4 50, .read 4 51, .read 4 52, .read 4 53, .read 4 54, .read 4 55, .read 4 56, .read 4 57, .read 4 58, .read 4 59, .read 4 60, .read 4 61, .read 4 62, .read 4 63, .read 4 64, .read 4 65, .read 4 66, .read 4 67, .read 4 68, .read 4 69, .read 4 70, .read 4 71, .read 4 72, .read 4 73, .read 4 74, .read 4 75, .read 4 76, .read 4 77, .read 4 78, .read 4 79, .read 4 80, .read 4 81, .read 4 82, .read 4 83, .read 4 84, .read 4 85, .read 4 86, .read 4 87, .read 4 88, .read 4 89, .read 4 90, .read 4 91, .read 4 92, .read 4 93, .read 4 94, .read 4 95, .read 4 96, .read 4 97, .read 4 98, .read 4 99]
theorem check4 : checkAll source Convert.fluxToBackbone fluxSpec never FluxFluxDiffuserOnly.diffuser4 cert4 = true := by kernel_rfl
theorem fresh4 : fresh cert4 49947976805055875702105555676651258885927959714850623950389460277500085853967958677514970186782537486840035455224501628247621839057337790419173375 16996415770136547158066822609665588266666985146970503393086112131962085808612607333990327134994004837651885082437054116870438605563979137289758188724901543007638275935843487150428389375 = true := by kernel_rfl
theorem below4 : cert4.all (fun c => (positions c).all fun p => decide (p.2 < 128)) = true := by kernel_rfl

noncomputable def cert5 : List Cert := [.read 5 0, .read 5 1, .read 5 2, .read 5 3, .read 5 4, .read 5 5, .read 5 6, .read 5 7, .read 5 8, .read 5 9, .read 5 10, .read 5 11, .read 5 12, .read 5 13, .read 5 14, .read 5 15, .read 5 16, .read 5 17, .read 5 18, .read 5 19, .read 5 20, .read 5 21, .read 5 22, .read 5 23, .read 5 24, .read 5 25, .read 5 26, .read 5 27, .read 5 28, .read 5 29, .read 5 30, .read 5 31, .read 5 32, .read 5 33, .read 5 34, .read 5 35, .read 5 36, .read 5 37, .read 5 38, .read 5 39, .read 5 40, .read 5 41, .read 5 42, .read 5 43, .read 5 44, .read 5 45, .read 5 46, .read 5 47, .read 5 48, .read 5 49, .read 5 50, .read 5 51, .read 5 52, .read 5 53, .read 5 54, .read 5 55, .read 5 56, .read 5 57, .read 5 58, .read 5 59, .read 5 60, .read 5 61, .read 5 62, .read 5 63, .read 5 64, .read 5 65, .read 5 66, .read 5 67, .read 5 68, .read 5 69, .read 5 70, .read 5 71, .read 5 72, .read 5 73, .read 5 74, .read 5 75, .read 5 76, .read 5 77, .read 5 78, .read 5 79, .read 5 80, .read 5 81, .read 5 82, .read 5 83, .read 5 84, .read 5 85, .read 5 86, .read 5 87, .read 5 88, .read 5 89, .read 5 90, .read 5 91, .read 5 92, .read 5 93, .read 5 94, .read 5 95, .read 5 96, .read 5 97, .read 5 98, .read 5 99]
theorem check5 : checkAll source Convert.fluxToBackbone fluxSpec never FluxFluxDiffuserOnly.diffuser5 cert5 = true := by kernel_rfl
theorem fresh5 : fresh cert5 16996415770136547158066822609665588266666985146970503393086112131962085808612607333990327134994004837651885082437054116870438605563979137289758188724901543007638275935843487150428389375 5783580587434429433751774908830515423542947032023526146103973685691569324339152953023621101073417870761152236962592319514669467716534307188817471400347631038119333562922329090902786459001706373111533083198413731147206885375 = true := by kernel_rfl
theorem below5 : cert5.all (fun c => (positions c).all fun p => decide (p.2 < 128)) = true := by kernel_rfl

noncomputable def cert6 : List Cert := [.read 6 0, .read 6 1, .read 6 2, .read 6 3, .read 6 4, .read 6 5, .read 6 6, .read 6 7, .read 6 8, .read 6 9, .read 6 10, .read 6 11, .read 6 12, .read 6 13, .read 6 14, .read 6 15, .read 6 16, .read 6 17, .read 6 18, .read 6 19, .read 6 20, .read 6 21, .read 6 22, .read 6 23, .read 6 24, .read 6 25, .read 6 26, .read 6 27, .read 6 28, .read 6 29, .read 6 30, .read 6 31, .read 6 32, .read 6 33, .read 6 34, .read 6 35, .read 6 36, .read 6 37, .read 6 38, .read 6 39, .read 6 40, .read 6 41, .read 6 42, .read 6 43, .read 6 44, .read 6 45, .read 6 46, .read 6 47, .read 6 48, .read 6 49, .read 6 50, .read 6 51, .read 6 52, .read 6 53, .read 6 54, .read 6 55, .read 6 56, .read 6 57, .read 6 58, .read 6 59, .read 6 60, .read 6 61, .read 6 62, .read 6 63, .read 6 64, .read 6 65, .read 6 66, .read 6 67, .read 6 68, .read 6 69, .read 6 70, .read 6 71, .read 6 72, .read 6 73, .read 6 74, .read 6 75, .read 6 76, .read 6 77, .read 6 78, .read 6 79, .read 6 80, .read 6 81, .read 6 82, .read 6 83, .read 6 84, .read 6 85, .read 6 86, .read 6 87, .read 6 88, .read 6 89, .read 6 90, .read 6 91, .read 6 92, .read 6 93, .read 6 94, .read 6 95, .read 6 96, .read 6 97, .read 6 98, .read 6 99]
theorem check6 : checkAll source Convert.fluxToBackbone fluxSpec never FluxFluxDiffuserOnly.diffuser6 cert6 = true := by kernel_rfl
theorem fresh6 : fresh cert6 5783580587434429433751774908830515423542947032023526146103973685691569324339152953023621101073417870761152236962592319514669467716534307188817471400347631038119333562922329090902786459001706373111533083198413731147206885375 1968050491570179337085559162930026112565192778543726505064180530245652917757682127269050373204720312234168537243163703337038001885150065397675217571666632037744008827720759585147109392414483311029307259938442729835871960412706247644030319557304057974868857061375 = true := by kernel_rfl
theorem below6 : cert6.all (fun c => (positions c).all fun p => decide (p.2 < 128)) = true := by kernel_rfl

noncomputable def cert7 : List Cert := [.read 7 0, .read 7 1, .read 7 2, .read 7 3, .read 7 4, .read 7 5, .read 7 6, .read 7 7, .read 7 8, .read 7 9, .read 7 10, .read 7 11, .read 7 12, .read 7 13, .read 7 14, .read 7 15, .read 7 16, .read 7 17, .read 7 18, .read 7 19, .read 7 20, .read 7 21, .read 7 22, .read 7 23, .read 7 24, .read 7 25, .read 7 26, .read 7 27, .read 7 28, .read 7 29, .read 7 30, .read 7 31, .read 7 32, .read 7 33, .read 7 34, .read 7 35, .read 7 36, .read 7 37, .read 7 38, .read 7 39, .read 7 40, .read 7 41, .read 7 42, .read 7 43, .read 7 44, .read 7 45, .read 7 46, .read 7 47, .read 7 48, .read 7 49, .read 7 50, .read 7 51, .read 7 52, .read 7 53, .read 7 54, .read 7 55, .read 7 56, .read 7 57, .read 7 58, .read 7 59, .read 7 60, .read 7 61, .read 7 62, .read 7 63, .read 7 64, .read 7 65, .read 7 66, .read 7 67, .read 7 68, .read 7 69, .read 7 70, .read 7 71, .read 7 72, .read 7 73, .read 7 74, .read 7 75, .read 7 76, .read 7 77, .read 7 78, .read 7 79]
theorem check7 : checkAll source Convert.fluxToBackbone fluxSpec never FluxFluxDiffuserOnly.diffuser7 cert7 = true := by kernel_rfl
theorem fresh7 : fresh cert7 1968050491570179337085559162930026112565192778543726505064180530245652917757682127269050373204720312234168537243163703337038001885150065397675217571666632037744008827720759585147109392414483311029307259938442729835871960412706247644030319557304057974868857061375 638668899051110339730038739877259173526829621178898582323371528758694334469324916816982586464271113276647866255012979871256490202203190882845099256806923589818749714870766628763606829107549900902192626186321526360817220804716799620515967980604917250800952558050987196608635532993104054295986175 = true := by kernel_rfl
theorem below7 : cert7.all (fun c => (positions c).all fun p => decide (p.2 < 128)) = true := by kernel_rfl

/-- All certificates -/
noncomputable def certs : List (List Cert) := [cert0, cert1, cert2, cert3, cert4, cert5, cert6, cert7]

theorem allGood : AllGood source Convert.fluxToBackbone fluxSpec never target certs :=
  .cons check0 <| .cons check1 <| .cons check2 <| .cons check3 <| .cons check4 <| .cons check5 <| .cons check6 <| .cons check7 .nil

theorem allFresh : Fresh certs 0 638668899051110339730038739877259173526829621178898582323371528758694334469324916816982586464271113276647866255012979871256490202203190882845099256806923589818749714870766628763606829107549900902192626186321526360817220804716799620515967980604917250800952558050987196608635532993104054295986175 :=
  .cons fresh0 <| .cons fresh1 <| .cons fresh2 <| .cons fresh3 <| .cons fresh4 <| .cons fresh5 <| .cons fresh6 <| .cons fresh7 (.nil _)

theorem increasing0 : increasing (key% "model.diffusion_model.double_blocks.12.img_attn.proj.weight") FluxFlux.diffuser0 (key% "") = true := by kernel_rfl
theorem increasing1 : increasing (key% "model.diffusion_model.double_blocks.16.img_mlp.0.weight") FluxFlux.diffuser1 (key% "model.diffusion_model.double_blocks.12.img_attn.proj.weight") = true := by kernel_rfl
theorem increasing2 : increasing (key% "model.diffusion_model.double_blocks.3.img_mod.lin.weight") FluxFlux.diffuser2 (key% "model.diffusion_model.double_blocks.16.img_mlp.0.weight") = true := by kernel_rfl
theorem increasing3 : increasing (key% "model.diffusion_model.double_blocks.7.txt_attn.proj.weight") FluxFlux.diffuser3 (key% "model.diffusion_model.double_blocks.3.img_mod.lin.weight") = true := by kernel_rfl
theorem increasing4 : increasing (key% "model.diffusion_model.single_blocks.12.linear1.weight") FluxFlux.diffuser4 (key% "model.diffusion_model.double_blocks.7.txt_attn.proj.weight") = true := by kernel_rfl
theorem increasing5 : increasing (key% "model.diffusion_model.single_blocks.23.modulation.lin.weight") FluxFlux.diffuser5 (key% "model.diffusion_model.single_blocks.12.linear1.weight") = true := by kernel_rfl
theorem increasing6 : increasing (key% "model.diffusion_model.single_blocks.35.linear1.weight") FluxFlux.diffuser6 (key% "model.diffusion_model.single_blocks.23.modulation.lin.weight") = true := by kernel_rfl
theorem increasing7 : increasing (key% "model.diffusion_model.vector_in.out_layer.weight") FluxFlux.diffuser7 (key% "model.diffusion_model.single_blocks.35.linear1.weight") = true := by kernel_rfl
theorem increasing8 : increasing (key% "text_encoders.clip_l.transformer.text_model.encoder.layers.4.layer_norm1.weight") FluxFlux.clip_l0 (key% "model.diffusion_model.vector_in.out_layer.weight") = true := by kernel_rfl
theorem increasing9 : increasing (key% "text_encoders.clip_l.transformer.text_model.final_layer_norm.weight") FluxFlux.clip_l1 (key% "text_encoders.clip_l.transformer.text_model.encoder.layers.4.layer_norm1.weight") = true := by kernel_rfl
theorem increasing10 : increasing (key% "text_encoders.t5xxl.transformer.encoder.block.18.layer.1.layer_norm.weight") FluxFlux.t5xxl0 (key% "text_encoders.clip_l.transformer.text_model.final_layer_norm.weight") = true := by kernel_rfl
theorem increasing11 : increasing (key% "text_encoders.t5xxl.transformer.encoder.block.8.layer.0.SelfAttention.k.weight") FluxFlux.t5xxl1 (key% "text_encoders.t5xxl.transformer.encoder.block.18.layer.1.layer_norm.weight") = true := by kernel_rfl
theorem increasing12 : increasing (key% "text_encoders.t5xxl.transformer.shared.weight") FluxFlux.t5xxl2 (key% "text_encoders.t5xxl.transformer.encoder.block.8.layer.0.SelfAttention.k.weight") = true := by kernel_rfl
theorem increasing13 : increasing (key% "vae.decoder.up.2.block.1.norm1.weight") FluxFlux.vae0 (key% "text_encoders.t5xxl.transformer.shared.weight") = true := by kernel_rfl
theorem increasing14 : increasing (key% "vae.encoder.down.2.downsample.conv.weight") FluxFlux.vae1 (key% "vae.decoder.up.2.block.1.norm1.weight") = true := by kernel_rfl
theorem increasing15 : increasing (key% "vae.encoder.norm_out.weight") FluxFlux.vae2 (key% "vae.encoder.down.2.downsample.conv.weight") = true := by kernel_rfl
theorem nodup : (source.flatten.map (·.key)).Nodup :=
  Increasing.nodup (.cons increasing0 <| .cons increasing1 <| .cons increasing2 <| .cons increasing3 <| .cons increasing4 <| .cons increasing5 <| .cons increasing6 <| .cons increasing7 <| .cons increasing8 <| .cons increasing9 <| .cons increasing10 <| .cons increasing11 <| .cons increasing12 <| .cons increasing13 <| .cons increasing14 <| .cons increasing15 (.nil _))

theorem covers : covered fluxUnused 638668899051110339730038739877259173526829621178898582323371528758694334469324916816982586464271113276647866255012979871256490202203190882845099256806923589818749714870766628763606829107549900902192626186321526360817220804716799620515967980604917250800952558050987196608635532993104054295986175 source 0 = true := by kernel_rfl

theorem below : ∀ c ∈ certs.flatten, ∀ p ∈ positions c, p.2 < 128 := by
  intro c hc p hp
  simp only [certs, List.flatten_cons, List.flatten_nil, List.mem_append, List.not_mem_nil, or_false] at hc
  rcases hc with hc | hc | hc | hc | hc | hc | hc | hc
  · exact of_decide_eq_true (List.all_eq_true.1 (List.all_eq_true.1 below0 c hc) p hp)
  · exact of_decide_eq_true (List.all_eq_true.1 (List.all_eq_true.1 below1 c hc) p hp)
  · exact of_decide_eq_true (List.all_eq_true.1 (List.all_eq_true.1 below2 c hc) p hp)
  · exact of_decide_eq_true (List.all_eq_true.1 (List.all_eq_true.1 below3 c hc) p hp)
  · exact of_decide_eq_true (List.all_eq_true.1 (List.all_eq_true.1 below4 c hc) p hp)
  · exact of_decide_eq_true (List.all_eq_true.1 (List.all_eq_true.1 below5 c hc) p hp)
  · exact of_decide_eq_true (List.all_eq_true.1 (List.all_eq_true.1 below6 c hc) p hp)
  · exact of_decide_eq_true (List.all_eq_true.1 (List.all_eq_true.1 below7 c hc) p hp)

theorem source_eq : source.flatten = FluxFlux.table.entries := by
  simp [source, Table.entries, FluxFlux.table, FluxFlux.diffuser, FluxFlux.clip_l, FluxFlux.t5xxl, FluxFlux.vae]

theorem target_eq : target.flatten = FluxFluxDiffuserOnly.table.entries := by
  simp [target, Table.entries, FluxFluxDiffuserOnly.table, FluxFluxDiffuserOnly.diffuser]

end Verif.Data.CertFlux
