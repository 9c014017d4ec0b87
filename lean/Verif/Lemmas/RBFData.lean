import Verif.Lemmas.RBFCert

/-! # Certificates for the shipped grids of 2 to 24 rotations

The numbers are packed integer matrices found by a floating point computation; that they are correct is checked below by
the kernel. `se3Cert n` is about the default width of the SE(3) kernels and `e3Cert n` about that of the E(3) kernels. -/

namespace GConv.RBFCert

open SO3 SO3.Tables

def se3Cert2 : Cert := ⟨314098314098000000, 314098314098, 125631, 125648, 99999033846033846099999, 100000033867033867100000, 511295496176496176511295⟩

def e3Cert2 : ℕ × ℕ × Cert := ⟨157080157080000000, 157080157080, 314098314098000000, 0, 125662, 125666, 99999033865033865099999, 100000033877033877100000, 511296496174496174511296⟩

def se3Cert3 : Cert := ⟨310090310088310090000000264075310088264075000000, 310088264075264075, 111757, 111774, 99999026334026335026334099999037995026335037995099999, 100000026355026355026355100000038019026355038019100000, 511118497878497878497878512094495963497878495963512094⟩

def e3Cert3 : ℕ × ℕ × Cert := ⟨156914156913156914000000132262156913132262000000, 156913132262132262, 310090310088310090000000264075310088264075000000, 0, 112381, 112385, 99999026726026727026726099999038405026727038405099999, 100000026739026739026739100000038420026739038420100000, 511152497846497846497846512147495910497846495910512147⟩

def se3Cert4 : Cert := ⟨281273302659298323281273000000296123291862302659296123000000313573298323291862313573000000, 281273281273296123291862, 115045, 115062, 99999035488030134031180035488099999031719032777030134031719099999027594031180032777027594099999, 100000035510030156031202035510100000031741032799030156031741100000027615031202032799027615100000, 512426497032497832497696497032512659497584497442497832497584511923498177497696497442498177512061⟩

def e3Cert4 : ℕ × ℕ × Cert := ⟨146345155763154567146345000000153828152130155763153828000000157071154567152130157071000000, 146345146345153828152130, 281273302659298323281273000000296123291862302659296123000000313573298323291862313573000000, 0, 119728, 119732, 99999038422033038034096038422099999034639035704033038034639099999030458034096035704030458099999, 100000038436033051034109038436100000034652035718033051034652100000030471034109035718030471100000, 512884496770497629497482496770513153497361497209497629497361512307498002497482497209498002512464⟩

def se3Cert5 : Cert := ⟨305209297122314159312972305209000000250477245685242963297122250477000000246491246966314159245685246491000000244838312972242963246966244838000000, 297122242963246491244838242963, 101942, 101959, 99999021150022940019283019524021150099999035122036543037363022940035122099999036302036160019283036543036302099999036797019524037363036160036797099999, 100000021171022961019302019543021171100000035147036568037388022961035147100000036327036185019302036568036327100000036822019543037388036185036822100000, 510914498834498514499175499145498834513107497660497329497158498514497660513060497351497416499175497329497351513092497299499145497158497416497299513158⟩

def e3Cert5 : ℕ × ℕ × Cert := ⟨156264154183157078157066156264000000116804110305106353154183116804000000111437112104157078110305111437000000109103157066106353112104109103000000, 154183106353111437109103106353, 305209297122314159312972305209000000250477245685242963297122250477000000246491246966314159245685246491000000244838312972242963246966244838000000, 0, 93987, 93991, 99999016079017692014422014635016079099999029201030596031405017692029201099999030359030219014422030596030359099999030846014635031405030219030846099999, 100000016091017704014433014645016091100000029217030612031421017704029217100000030374030235014433030612030374100000030862014645031421030235030862100000, 510557499068498814499335499311499068512169498017497751497607498814498017512126497769497820499335497751497769512164497725499311497607497820497725512213⟩

def se3Cert6 : Cert := ⟨235180242206224234308277312010235180000000314116244479250039234168242206314116000000226590235189245111224234244479226590000000310929311143308277250039235189310929000000211833312010234168245111311143211833000000, 224234234168226590224234211833211833, 88851, 88868, 99999029692027584033158012414011799029692099999011462026923025346030003027584011462099999032394029689026740033158026923032394099999011974011939012414025346029689011974099999037337011799030003026740011939037337099999, 100000029719027611033186012432011816029719100000011479026949025371030031027611011479100000032421029716026766033186026949032421100000011992011957012432025371029716011992100000037366011816030031026766011957037366100000, 512294497213497675497382500075500292497213512648501423497628498062497159497675501423512912496791497306497783497382497628496791512480500278500285500075498062497306500278512526496582500292497159497783500285496582512654⟩

def e3Cert6 : ℕ × ℕ × Cert := ⟨93722105206071422156733157034093722000000157079108579116228091919105206157079000000076833093741109493071422108579076833000000156976156990156733116228093741156976000000028787157034091919109493156990028787000000, 71422091919076833071422028787028787, 235180242206224234308277312010235180000000314116244479250039234168242206314116000000226590235189245111224234244479226590000000310929311143308277250039235189310929000000211833312010234168245111311143211833000000, 0, 49221, 49225, 99999001912001504002740000111000094001912099999000086001390001141001978001504000086099999002539001911001359002740001390002539099999000099000098000111001141001911000099099999004034000094001978001359000098004034099999, 100000001917001508002746000113000096001917100000000087001394001145001983001508000087100000002545001916001363002746001394002545100000000100000099000113001145001916000100100000004042000096001983001363000099004042100000, 510013499812499856499732499994499997499812510011500002499866499894499806499856500002510014499750499814499872499732499866499750510016499997499997499994499894499814499997510021499600499997499806499872499997499600510022⟩

def se3Cert7 : Cert := ⟨302784208225210503205904289538299797302784000000216930313714242782216402220507208225216930000000306746254713313893219202210503313714306746000000311243221659210535205904242782254713311243000000203059302528289538216402313893221659203059000000260252299797220507219202210535302528260252000000, 205904216402208225210503203059203059210535, 83288, 83305, 99999010121033847033050034670012313010587010121099999030858008553022931031035029675033847030858099999009529019770008529030103033050008553009529099999008890029300033039034670022931019770008890099999035692010161012313031035008529029300035692099999018411010587029675030103033039010161018411099999, 100000010138033877033080034700012332010604010138100000030887008568022957031064029704033877030887100000009545019795008544030132033080008568009545100000008905029328033069034700022957019795008905100000035723010177012332031064008544029328035723100000018434010604029704030132033069010177018434100000, 514128500475495855495271495684501134501404500475512790497087500902498778496864497433495855497087513181501248499459500698496848495271500902501248513661501696496352495841495684498778499459501696513266495750499856501134496864500698496352495750513404499769501404497433496848495841499856499769512994⟩

def e3Cert7 : ℕ × ℕ × Cert := ⟨155773000000019220000000151055155018155773000000050906157076106072049094061821000000050906000000156529122058157078058100019220157076156529000000157003064965019476000000106072122058157003000000000000155731151055049094157078064965000000000000128322155018061821058100019476155731128322000000, 49094000000019220000000000000019476, 302784208225210503205904289538299797302784000000216930313714242782216402220507208225216930000000306746254713313893219202210503313714306746000000311243221659210535205904242782254713311243000000203059302528289538216402313893221659203059000000260252299797220507219202210535302528260252000000, 0, 10052, 10057, 99998000000000000000000000000000000000000000000099998000000000000000000000000000000000000000000099998000000000000000000000000000000000000000000099998000000000000000000000000000000000000000000099998000000000000000000000000000000000000000000099998000000000000000000000000000000000000000000099998, 100000000001000001000001000001000001000001000001100000000001000001000001000001000001000001000001100000000001000001000001000001000001000001000001100000000001000001000001000001000001000001000001100000000001000001000001000001000001000001000001100000000001000001000001000001000001000001000001100000, 510000500000500000500000500000500000500000500000510000500000500000500000500000500000500000500000510000500000500000500000500000500000500000500000510000500000500000500000500000500000500000500000510000500000500000500000500000500000500000500000510000500000500000500000500000500000500000500000510000⟩

def se3Cert8 : Cert := ⟨248391247661306144205072309113207695205888248391000000312962249021214581204082310815216598247661312962000000248311210994194141311998209503306144249021248311000000203177313227200192202120205072214581210994203177000000309235313300303611309113204082194141313227309235000000175678300402207695310815311998200192313300175678000000301115205888216598209503202120303611300402301115000000, 205072204082194141200192203177175678175678202120, 77999, 78015, 99999017245017424006925030177006574029260029890017245099999006141017091026934030527006380026275017424006141099999017264028131034171006247028638006925017091017264099999030849006112031926031228030177026934028131030849099999006560006104007237006574030527034171006112006560099999041508007648029260006380006247031926006104041508099999007555029890026275028638031228007237007648007555099999, 100000017268017447006939030207006587029290029920017268100000006153017115026963030557006392026304017447006153100000017287028161034202006260028668006939017115017287100000030879006124031956031258030207026963028161030879100000006573006116007251006587030557034202006124006573100000041541007662029290006392006260031956006116041541100000007569029920026304028668031258007251007662007569100000, 514203498846498867503722495679502541494327495765498846513543503241498848496602494366502434496709498867503241514290498867496314493660502731496292503722498848498867514752495474502812493793495487495679496602496314495474514243500990501618503426502541494366493660502812500990516718492043500909494327502434502731493793501618492043516412501464495765496709496292495487503426500909501464514175⟩

def e3Cert8 : ℕ × ℕ × Cert := ⟨114036113068156443000000156819000000000000114036000000157065114897042161000000156972049788113068157065000000113931023214000000157042004708156443114897113931000000000000157068000000000000000000042161023214000000000000156833157059155961156819000000000000157068156833000000000000155190000000156972157042000000157059000000000000155381000000049788004708000000155961155190155381000000, 0, 248391247661306144205072309113207695205888248391000000312962249021214581204082310815216598247661312962000000248311210994194141311998209503306144249021248311000000203177313227200192202120205072214581210994203177000000309235313300303611309113204082194141313227309235000000175678300402207695310815311998200192313300175678000000301115205888216598209503202120303611300402301115000000, 0, 35, 40, 24302000000000000000000000000000000000000000000000000024302000000000000000000000000000000000000000000000000024302000000000000000000000000000000000000000000000000024302000000000000000000000000000000000000000000000000024302000000000000000000000000000000000000000000000000024302000000000000000000000000000000000000000000000000024302000000000000000000000000000000000000000000000000024302, 100000000001000001000001000001000001000001000001000001100000000001000001000001000001000001000001000001000001100000000001000001000001000001000001000001000001000001100000000001000001000001000001000001000001000001000001100000000001000001000001000001000001000001000001000001100000000001000001000001000001000001000001000001000001100000000001000001000001000001000001000001000001000001100000, 516090500000500000500000500000500000500000500000500000516090500000500000500000500000500000500000500000500000516090500000500000500000500000500000500000500000500000516090500000500000500000500000500000500000500000500000516090500000500000500000500000500000500000500000500000516090500000500000500000500000500000500000500000500000516090500000500000500000500000500000500000500000500000516090⟩

def se3Cert9 : Cert := ⟨236224313318309143223148225885213213209768202645236224000000226576204071238287198219303867301363231223313318226576000000229368201439305968210351190469213719309143204071229368000000309748193709221380311766223405223148238287201439309748000000226681216648196336312134225885198219305968193709226681000000213263307020311601213213303867210351221380216648213263000000302108212602209768301363190469311766196336307020302108000000224134202645231223213719223405312134311601212602224134000000, 202645198219190469193709196336193709210351190469202645, 79038, 79055, 99999021263006564007055025119024277028329029498032003021263099999024067031492020694033617007717008049022688006564024067099999023232032438007448029298036547028160007055031492023232099999006982035307025673006743025039025119020694032438006982099999024036027192034317006701024277033617007448035307024036099999028313007316006763028329007717029298025673027192028313099999007949028535029498008049036547006743034317007316007949099999024814032003022688028160025039006701006763028535024814099999, 100000021290006578007069025148024305028359029528032034021290100000024095031523020720033649007732008064022715006578024095100000023260032470007462029328036580028190007069031523023260100000006996035339025701006757025068025148020720032470006996100000024064027222034349006714024305033649007462035339024064100000028342007330006776028359007732029328025701027222028342100000007964028564029528008064036580006757034349007330007964100000024842032034022715028190025068006714006776028564024842100000, 513781498068502817501501498497498197497153496645496725498068513378497402497477498340496688502726501684498085502817497402514665498442497296501691496664495678498038501501497477498442513285501295496276498114499926497924498497498340497296501295513648498204497491496613502059498197496688501691496276498204513830497304499806501788497153502726496664498114497491497304514040502551497414496645501684495678499926496613499806502551513914497986496725498085498038497924502059501788497414497986513536⟩

def e3Cert9 : ℕ × ℕ × Cert := ⟨95550157072156830068768075257036172010679000000095550000000076799000000099015000000156024155445086431157072076799000000082707000000156410017754000000038503156830000000082707000000156887000000064200157032069397068768099015000000156887000000077027049945000000157038075257000000156410000000077027000000036402156562157001036172156024017754064200049945036402000000155628033089010679155445000000157032000000156562155628000000071181000000086431038503069397157038157001033089071181000000, 17754000000000000, 236224313318309143223148225885213213209768202645236224000000226576204071238287198219303867301363231223313318226576000000229368201439305968210351190469213719309143204071229368000000309748193709221380311766223405223148238287201439309748000000226681216648196336312134225885198219305968193709226681000000213263307020311601213213303867210351221380216648213263000000302108212602209768301363190469311766196336307020302108000000224134202645231223213719223405312134311601212602224134000000, 0, 1609, 1614, 99933000000000000000000000000000000000000000000000000000000099933000000000000000000000000000000000000000000000000000000099933000000000000000000000000000000000000000000000000000000099933000000000000000000000000000000000000000000000000000000099933000000000000000000000000000000000000000000000000000000099933000000000000000000000000000000000000000000000000000000099933000000000000000000000000000000000000000000000000000000099933000000000000000000000000000000000000000000000000000000099933, 100000000001000001000001000001000001000001000001000001000001100000000001000001000001000001000001000001000001000001000001100000000001000001000001000001000001000001000001000001000001100000000001000001000001000001000001000001000001000001000001100000000001000001000001000001000001000001000001000001000001100000000001000001000001000001000001000001000001000001000001100000000001000001000001000001000001000001000001000001000001100000000001000001000001000001000001000001000001000001000001100000, 510003500000500000500000500000500000500000500000500000500000510003500000500000500000500000500000500000500000500000500000510003500000500000500000500000500000500000500000500000500000510003500000500000500000500000500000500000500000500000500000510003500000500000500000500000500000500000500000500000500000510003500000500000500000500000500000500000500000500000500000510003500000500000500000500000500000500000500000500000500000510003500000500000500000500000500000500000500000500000500000510003⟩

def se3Cert10 : Cert := ⟨207193211702210484309904214478263897312676214436206728207193000000308334212781208323311456311746214033213261214404211702308334000000264360211676215562215951268414214784215407210484212781264360000000210488213245212854201511310198308855309904208323211676210488000000263638214871311695206746214513214478311456215562213245263638000000218387211023261783216336263897311746215951212854214871218387000000210985215529260084312676214033268414201511311695211023210985000000211550211173214436213261214784310198206746261783215529211550000000313993206728214404215407308855214513216336260084211173313993000000, 206728207193211676201511206746211023210985201511206746206728, 82825, 82842, 99999033803032228032649008835031279017213008458031293033967033803099999009055031857033404008623008583031430031693031304032228009055099999017107032236030912030782016199031175030965032649031857017107099999032648031698031832035845008795008981008835033404032236032648099999017273031145008590033961031267031279008623030912031698017273099999029970032462017704030652017213008583030782031832031145029970099999032475030923018105008458031430016199035845008590032462032475099999032280032410031293031693031175008795033961017704030923032280099999008284033967031304030965008981031267030652018105032410008284099999, 100000033833032257032679008851031308017236008473031322033998033833100000009070031886033434008638008599031459031722031333032257009070100000017130032266030942030811016221031204030994032679031886017130100000032677031728031861035876008810008997008851033434032266032677100000017296031175008605033991031296031308008638030942031728017296100000029999032492017727030682017236008599030811031861031175029999100000032505030953018128008473031459016221035876008605032492032505100000032310032440031322031722031204008810033991017727030953032310100000008299033998031333030994008997031296030682018128032440008299100000, 518732496030497154492669507366497384499757507512493110493096496030515628502306497411496101502374502409496471497311497395497154502306513989500170497154498382498432499919497730497781492669497411500170518573492688497682497546492445506951506896507366496101497154492688518633499658497519507447493123493138497384502374498382497682499658513860498756497235499892497842499757502409498432497546497519498756513878497346497666499732507512496471499919492445507447497235497346519048492693492685493110497311497730506951493123499892497666492693517984506747493096497395497781506896493138497842499732492685506747517899⟩

def e3Cert10 : ℕ × ℕ × Cert := ⟨27973019003156898041778132086157058041613000000000000000000156743034049000000157009157032039892036399041437027973156743000000132538027833046022047457136362042995045489019003034049132538000000019100036281034392000000156927156806156898000000027833019100000000131826043371157015000000041905041778157009046022036281131826000000055639023456129935048842132086157032047457034392043371055639000000023159045910128136157058039892136362000000157015023456023159000000027006024460041613036399042995156927000000129935045910027006000000157069000000041437045489156806041905048842128136024460157069000000, 27833000000000000023456023159000000000000000000, 207193211702210484309904214478263897312676214436206728207193000000308334212781208323311456311746214033213261214404211702308334000000264360211676215562215951268414214784215407210484212781264360000000210488213245212854201511310198308855309904208323211676210488000000263638214871311695206746214513214478311456215562213245263638000000218387211023261783216336263897311746215951212854214871218387000000210985215529260084312676214033268414201511311695211023210985000000211550211173214436213261214784310198206746261783215529211550000000313993206728214404215407308855214513216336260084211173313993000000, 0, 5980, 5985, 99995000000000000000000000000000000000000000000000000000000000000099995000000000000000000000000000000000000000000000000000000000000099995000000000000000000000000000000000000000000000000000000000000099995000000000000000000000000000000000000000000000000000000000000099995000000000000000000000000000000000000000000000000000000000000099995000000000000000000000000000000000000000000000000000000000000099995000000000000000000000000000000000000000000000000000000000000099995000000000000000000000000000000000000000000000000000000000000099995000000000000000000000000000000000000000000000000000000000000099995, 100000000001000001000001000001000001000001000001000001000001000001100000000001000001000001000001000001000001000001000001000001000001100000000001000001000001000001000001000001000001000001000001000001100000000001000001000001000001000001000001000001000001000001000001100000000001000001000001000001000001000001000001000001000001000001100000000001000001000001000001000001000001000001000001000001000001100000000001000001000001000001000001000001000001000001000001000001100000000001000001000001000001000001000001000001000001000001000001100000000001000001000001000001000001000001000001000001000001000001100000, 510000500000500000500000500000500000500000500000500000500000500000510000500000500000500000500000500000500000500000500000500000500000510000500000500000500000500000500000500000500000500000500000500000510000500000500000500000500000500000500000500000500000500000500000510000500000500000500000500000500000500000500000500000500000500000510000500000500000500000500000500000500000500000500000500000500000510000500000500000500000500000500000500000500000500000500000500000510000500000500000500000500000500000500000500000500000500000500000510000500000500000500000500000500000500000500000500000500000500000510000⟩

def se3Cert11 : Cert := ⟨204443248927216798295610312101207775216067205476212449215200204443000000307386203759211533206960311785205472305641301028209397248927307386000000253531240545252679192650246598189467193722244513216798203759253531000000214082216521208287312162206431203151313622295610211533240545214082000000295143226719216459207122205962215426312101206960252679216521295143000000215513216702213601209061215696207775311785192650208287226719215513000000205233311876307853197818216067205472246598312162216459216702205233000000222988208426293984205476305641189467206431207122213601311876222988000000313747208023212449301028193722203151205962209061307853208426313747000000222176215200209397244513313622215426215696197818293984208023222176000000, 204443203759189467203151205962206960192650205233189467193722197818, 79724, 79741, 99999031989018458027757009229007022030813027997031622029206028284031989099999007604032233029517031098007060031623007829008450030250018458007604099999017329020642017534036346019048037571035937019587027757032233017329099999028657027848030634007015031284032451006842009229029517020642028657099999009299024619027868031041031450028209007022031098017534027848009299099999028180027788028818030366028120030813007060036346030634024619028180099999031708007049007545034400027997031623019048007015027868027788031708099999025771030586009473031622007829037571031284031041028818007049025771099999006828030726029206008450035937032451031450030366007545030586006828099999026026028284030250019587006842028209028120034400009473030726026026099999, 100000032020018482027786009245007036030843028027031652029236028314032020100000007619032264029547031129007074031654007844008466030280018482007619100000017353020668017558036378019072037603035969019612027786032264017353100000028686027877030665007029031315032482006856009245029547020668028686100000009315024646027897031072031480028239007036031129017558027877009315100000028210027818028848030396028149030843007074036378030665024646028210100000031738007063007559034431028027031654019072007029027897027818031738100000025799030616009490031652007844037603031315031072028848007063025799100000006841030757029236008466035969032482031480030396007559030616006841100000026055028314030280019612006856028239028149034431009490030757026055100000, 528060475727515066513945514090515931471861511305471408472215511676475727547939476462469839480615477911543899474139543361542602473646515066476462530125519331511553513669467367516026467438468174516535513945469839519331536431510212512245463912522164464789465182522780514090480615511553510212522816512997478206508234477041477413508479515931477911513669512245512997525451474650509895474193474498510191471861543899467367463912478206474650564245469020552882551895467884511305474139516026522164508234509895469020529971470587470451519418471408543361467438464789477041474193552882470587563273551593469205472215542602468174465182477413474498551895470451551593561471470216511676473646516535522780508479510191467884519418469205470216531045⟩

def e3Cert11 : ℕ × ℕ × Cert := ⟨114769050484153659157026000000047868000000032313044660000000000000156605000000026919000000157022000000156354155355000000114769156605000000120617102644119580000000111600000000000000108632050484000000120617000000040093049475000000157043000000000000157071153659026919102644040093000000153480077129049287000000000000045529157026000000119580049475153480000000045826050143037968000000046519000000157022000000000000077129045826000000000000157028156680000000047868000000111600157043049287050143000000000000068375000000153016000000156354000000000000000000037968157028068375000000157071000000032313155355000000000000000000000000156680000000157071000000066312044660000000108632157071045529046519000000153016000000066312000000, 0, 204443248927216798295610312101207775216067205476212449215200204443000000307386203759211533206960311785205472305641301028209397248927307386000000253531240545252679192650246598189467193722244513216798203759253531000000214082216521208287312162206431203151313622295610211533240545214082000000295143226719216459207122205962215426312101206960252679216521295143000000215513216702213601209061215696207775311785192650208287226719215513000000205233311876307853197818216067205472246598312162216459216702205233000000222988208426293984205476305641189467206431207122213601311876222988000000313747208023212449301028193722203151205962209061307853208426313747000000222176215200209397244513313622215426215696197818293984208023222176000000, 0, 35, 40, 24302000000000000000000000000000000000000000000000000000000000000000000024302000000000000000000000000000000000000000000000000000000000000000000024302000000000000000000000000000000000000000000000000000000000000000000024302000000000000000000000000000000000000000000000000000000000000000000024302000000000000000000000000000000000000000000000000000000000000000000024302000000000000000000000000000000000000000000000000000000000000000000024302000000000000000000000000000000000000000000000000000000000000000000024302000000000000000000000000000000000000000000000000000000000000000000024302000000000000000000000000000000000000000000000000000000000000000000024302000000000000000000000000000000000000000000000000000000000000000000024302, 100000000001000001000001000001000001000001000001000001000001000001000001100000000001000001000001000001000001000001000001000001000001000001000001100000000001000001000001000001000001000001000001000001000001000001000001100000000001000001000001000001000001000001000001000001000001000001000001100000000001000001000001000001000001000001000001000001000001000001000001100000000001000001000001000001000001000001000001000001000001000001000001100000000001000001000001000001000001000001000001000001000001000001000001100000000001000001000001000001000001000001000001000001000001000001000001100000000001000001000001000001000001000001000001000001000001000001000001100000000001000001000001000001000001000001000001000001000001000001000001100000, 516090500000500000500000500000500000500000500000500000500000500000500000516090500000500000500000500000500000500000500000500000500000500000500000516090500000500000500000500000500000500000500000500000500000500000500000516090500000500000500000500000500000500000500000500000500000500000500000516090500000500000500000500000500000500000500000500000500000500000500000516090500000500000500000500000500000500000500000500000500000500000500000516090500000500000500000500000500000500000500000500000500000500000500000516090500000500000500000500000500000500000500000500000500000500000500000516090500000500000500000500000500000500000500000500000500000500000500000516090500000500000500000500000500000500000500000500000500000500000500000516090⟩

def se3Cert12 : Cert := ⟨299835310922264425304231198334268746203474189644192575192405190270299835000000183473306741310046209861233180276881185940194867230331192027310922183473000000189152313897197141223382193932311222312341188671247421264425306741189152000000190952233224220820267542192392213365279846217524304231310046313897190952000000188006260036181265314003201938203354191309198334209861197141233224188006000000314144237495206902225653240460249593268746233180223382220820260036314144000000209258202365204644216901204460203474276881193932267542181265237495209258000000210069224297245812311624189644185940311222192392314003206902202365210069000000272323226251314088192575194867312341213365201938225653204644224297272323000000310975250836192405230331188671279846203354240460216901245812226251310975000000223972190270192027247421217524191309249593204460311624314088250836223972000000, 189644183473183473189152181265188006202365181265185940192575188671190270, 75195, 75212, 99999006357005165011728005860029945010928028108033205032084032149032964006357099999035633005591005252025924018887009538034652031223019668032292005165035633099999033396004879030381021663031573005136005027033582015313011728005591033396099999032702018875022432011147032154024772009067023448005860005252004879032702099999033841012585036524004869028650028150032566029945025924030381018875033841099999004856017747026922020996016993014815010928018887021663022432012585004856099999026125028499027700023643027764028108009538031573011147036524017747026125099999025854021393015690005097033205034652005136032154004869026922028499025854099999010299020823004861032084031223005027024772028650020996027700021393010299099999005160014535032149019668033582009067028150016993023643015690020823005160099999021488032964032292015313023448032566014815027764005097004861014535021488099999, 100000006371005177011748005873029977010947028140033238032117032182032997006371100000035667005603005264025954018913009556034685031255019694032325005177035667100000033429004891030413021691031605005148005039033615015336011748005603033429100000032735018902022460011166032186024801009085023477005873005264004891032735100000033874012606036558004881028681028182032599029977025954030413018902033874100000004868017773026953021024017018014838010947018913021691022460012606004868100000026155028530027731023672027795028140009556031605011166036558017773026155100000025884021420015714005108033238034685005148032186004881026953028530025884100000010317020850004873032117031255005039024801028681021024027731021420010317100000005172014558032182019694033615009085028182017018023672015714020850005172100000021516032997032325015336023477032599014838027795005108004873014558021516100000, 523615508572503401500689511088493701505407492658493593490389491647488459508572522706490696508255502580498661503701501930487615489482498756489957503401490696525284487291510744492013498241488815511259504402491234500431500689508255487291520443491953503230500430506665488461494339504623496332511088502580510744491953525553490657503343487689504028494816489892491241493701498661492013503230490657516501500731504770495555499919503976502501505407503701498241500430503343500731515023496833494641494116496715493804492658501930488815506665487689504770496833519677493955499564505823504234493593487615511259488461504028495555494641493955523179507576496947506667490389489482504402494339494816499919494116499564507576518849503116506799491647498756491234504623489892503976496715505823496947503116517388502691488459489957500431496332491241502501493804504234506667506799502691519942⟩

def e3Cert12 : ℕ × ℕ × Cert := ⟨155032156974132607156094000000136667000000000000000000000000000000155032000000000000156529156910012075090115143299000000000000084662000000156974000000000000000000157079000000069352000000156994157047000000112729132607156529000000000000000000090197062701135573000000036870145395052884156094156910157079000000000000000000128090000000157079000000000000000000000000012075000000090197000000000000157079097699000000074731102510115643136667090115069352062701128090157079000000000000000000000000050810000000000000143299000000135573000000097699000000000000014765071571110491157016000000000000156994000000157079000000000000014765000000139743076080157079000000000000157047036870000000074731000000071571139743000000156978117258000000084662000000145395000000102510050810110491076080156978000000070791000000000000112729052884000000115643000000157016157079117258070791000000, 0, 299835310922264425304231198334268746203474189644192575192405190270299835000000183473306741310046209861233180276881185940194867230331192027310922183473000000189152313897197141223382193932311222312341188671247421264425306741189152000000190952233224220820267542192392213365279846217524304231310046313897190952000000188006260036181265314003201938203354191309198334209861197141233224188006000000314144237495206902225653240460249593268746233180223382220820260036314144000000209258202365204644216901204460203474276881193932267542181265237495209258000000210069224297245812311624189644185940311222192392314003206902202365210069000000272323226251314088192575194867312341213365201938225653204644224297272323000000310975250836192405230331188671279846203354240460216901245812226251310975000000223972190270192027247421217524191309249593204460311624314088250836223972000000, 0, 35, 40, 24302000000000000000000000000000000000000000000000000000000000000000000000000024302000000000000000000000000000000000000000000000000000000000000000000000000024302000000000000000000000000000000000000000000000000000000000000000000000000024302000000000000000000000000000000000000000000000000000000000000000000000000024302000000000000000000000000000000000000000000000000000000000000000000000000024302000000000000000000000000000000000000000000000000000000000000000000000000024302000000000000000000000000000000000000000000000000000000000000000000000000024302000000000000000000000000000000000000000000000000000000000000000000000000024302000000000000000000000000000000000000000000000000000000000000000000000000024302000000000000000000000000000000000000000000000000000000000000000000000000024302000000000000000000000000000000000000000000000000000000000000000000000000024302, 100000000001000001000001000001000001000001000001000001000001000001000001000001100000000001000001000001000001000001000001000001000001000001000001000001000001100000000001000001000001000001000001000001000001000001000001000001000001000001100000000001000001000001000001000001000001000001000001000001000001000001000001100000000001000001000001000001000001000001000001000001000001000001000001000001100000000001000001000001000001000001000001000001000001000001000001000001000001100000000001000001000001000001000001000001000001000001000001000001000001000001100000000001000001000001000001000001000001000001000001000001000001000001000001100000000001000001000001000001000001000001000001000001000001000001000001000001100000000001000001000001000001000001000001000001000001000001000001000001000001100000000001000001000001000001000001000001000001000001000001000001000001000001100000, 516090500000500000500000500000500000500000500000500000500000500000500000500000516090500000500000500000500000500000500000500000500000500000500000500000500000516090500000500000500000500000500000500000500000500000500000500000500000500000516090500000500000500000500000500000500000500000500000500000500000500000500000516090500000500000500000500000500000500000500000500000500000500000500000500000516090500000500000500000500000500000500000500000500000500000500000500000500000516090500000500000500000500000500000500000500000500000500000500000500000500000516090500000500000500000500000500000500000500000500000500000500000500000500000516090500000500000500000500000500000500000500000500000500000500000500000500000516090500000500000500000500000500000500000500000500000500000500000500000500000516090500000500000500000500000500000500000500000500000500000500000500000500000516090⟩

def se3Cert13 : Cert := ⟨311472209520312904197691209922197107203347311859308540196653192710214129311472000000197812266196237432203744234185196127308987185965233452231746194567209520197812000000192665311768208905196360204127213032305689196883311816310004312904266196192665000000236579189909234694197412311765176306238826237971194237197691237432311768236579000000201919232637194891198004188860234013266237311194209922203744208905189909201919000000310814312514208717297360313372192961211142197107234185196360234694232637310814000000307680197727176213268802238551199513203347196127204127197412194891312514307680000000211226312704309149193019210866311859308987213032311765198004208717197727211226000000302412199137193440208491308540185965305689176306188860297360176213312704302412000000184051173525312132196653233452196883238826234013313372268802309149199137184051000000235788200352192710231746311816237971266237192961238551193019193440173525235788000000311210214129194567310004194237311194211142199513210866208491312132200352311210000000, 192710185965192665176306188860189909176213193019193440173525184051173525194237, 74282, 74298, 99999004749025185004617029299025052029512027284004713005028029678031144023687004749099999029255010799017021027146017859029871004985033745018052018508030448025185029255099999031161004722025389029785027013024038005312029594004717004887004617010799031161099999017238032210017726029400004722037666016669016884030571029299017021004722017238099999027784018269030328029185032615017904010791004775025052027146025389032210027784099999004810004653025452006220004575031049024651029512017859029785017726018269004810099999005112029286037704010336016738028640027284029871027013029400030328004653005112099999024624004636004969031028024741004713004985024038004722029185025452029286024624099999005655028775030869025528005028033745005312037666032615006220037704004636005655099999034504038834004688029678018052029594016669017904004575010336004969028775034504099999017442028340031144018508004717016884010791031049016738031028030869038834017442099999004773023687030448004887030571004775024651028640024741025528004688028340004773099999, 100000004760025214004628029330025081029543027314004724005040029709031176023715004760100000029286010817017045027176017884029902004996033778018077018533030480025214029286100000031193004733025419029817027043024067005324029625004728004898004628010817031193100000017262032242017750029431004733037699016693016908030603029330017045004733017262100000027815018294030359029216032647017929010810004786025081027176025419032242027815100000004822004664025482006233004586031081024680029543017884029817017750018294004822100000005124029317037738010354016762028671027314029902027043029431030359004664005124100000024653004647004980031059024770004724004996024067004733029216025482029317024653100000005668028806030901025557005040033778005324037699032647006233037738004647005668100000034537038868004699029709018077029625016693017929004586010354004980028806034537100000017466028371031176018533004728016908010810031081016762031059030901038868017466100000004784023715030480004898030603004786024680028671024770025557004699028371004784100000, 523569507848494841507844492731494151491786494147512787505115492056491623494616507848520788492277510479498375492884499045492533507707491627498783498642491769494841492277523621491779507852494331491904493907494663505234492028507867512788507844510479491779522786498996491538499429491802507723489714499254499681491446492731498375507852498996520434492718498725492036492582492089498417510387507515494151492884494331491538492718523101507550512972494498504698507699491922495083491786499045491904499429498725507550521724507589492228490128510170499833492476494147492533493907491802492036512972507589523874494835505213507752491490494847512787507707494663507723492582494498492228494835523029504897492567491513494139505115491627505234489714492089504698490128505213504897528509491161489574505402492056498783492028499254498417507699510170507752492567491161520964499296492617491623498642507867499681510387491922499833491490491513489574499296523037507518494616491769512788491446507515495083492476494847494139505402492617507518523037⟩

def e3Cert13 : ℕ × ℕ × Cert := ⟨157007005181157067000000012880000000000000157021156768000000000000040315157007000000000000134325097592000000091951000000156801000000090637087426000000005181000000000000000000157011000000000000000000035289156360000000157039156903157067134325000000000000096148000000092864000000157028000000099880098496000000000000097592157011096148000000000000089110000000000000000000091637134359156986012880000000000000000000000000000000156958157061000000154257157068000000024314000000091951000000092864089110156958000000156656000000000000136719099440000000000000000000000000000000000000157061156656000000024865157058156824000000022197157021156801035289157028000000000000000000024865000000155709000000000000000000156768000000156360000000000000154257000000157058155709000000000000000000157041000000090637000000099880091637157068136719156824000000000000000000094798000000000000087426157039098496134359000000099440000000000000000000094798000000157005040315000000156903000000156986024314000000022197000000157041000000157005000000, 0, 311472209520312904197691209922197107203347311859308540196653192710214129311472000000197812266196237432203744234185196127308987185965233452231746194567209520197812000000192665311768208905196360204127213032305689196883311816310004312904266196192665000000236579189909234694197412311765176306238826237971194237197691237432311768236579000000201919232637194891198004188860234013266237311194209922203744208905189909201919000000310814312514208717297360313372192961211142197107234185196360234694232637310814000000307680197727176213268802238551199513203347196127204127197412194891312514307680000000211226312704309149193019210866311859308987213032311765198004208717197727211226000000302412199137193440208491308540185965305689176306188860297360176213312704302412000000184051173525312132196653233452196883238826234013313372268802309149199137184051000000235788200352192710231746311816237971266237192961238551193019193440173525235788000000311210214129194567310004194237311194211142199513210866208491312132200352311210000000, 0, 35, 40, 24302000000000000000000000000000000000000000000000000000000000000000000000000000000024302000000000000000000000000000000000000000000000000000000000000000000000000000000024302000000000000000000000000000000000000000000000000000000000000000000000000000000024302000000000000000000000000000000000000000000000000000000000000000000000000000000024302000000000000000000000000000000000000000000000000000000000000000000000000000000024302000000000000000000000000000000000000000000000000000000000000000000000000000000024302000000000000000000000000000000000000000000000000000000000000000000000000000000024302000000000000000000000000000000000000000000000000000000000000000000000000000000024302000000000000000000000000000000000000000000000000000000000000000000000000000000024302000000000000000000000000000000000000000000000000000000000000000000000000000000024302000000000000000000000000000000000000000000000000000000000000000000000000000000024302000000000000000000000000000000000000000000000000000000000000000000000000000000024302, 100000000001000001000001000001000001000001000001000001000001000001000001000001000001100000000001000001000001000001000001000001000001000001000001000001000001000001000001100000000001000001000001000001000001000001000001000001000001000001000001000001000001100000000001000001000001000001000001000001000001000001000001000001000001000001000001100000000001000001000001000001000001000001000001000001000001000001000001000001000001100000000001000001000001000001000001000001000001000001000001000001000001000001000001100000000001000001000001000001000001000001000001000001000001000001000001000001000001100000000001000001000001000001000001000001000001000001000001000001000001000001000001100000000001000001000001000001000001000001000001000001000001000001000001000001000001100000000001000001000001000001000001000001000001000001000001000001000001000001000001100000000001000001000001000001000001000001000001000001000001000001000001000001000001100000000001000001000001000001000001000001000001000001000001000001000001000001000001100000, 516090500000500000500000500000500000500000500000500000500000500000500000500000500000516090500000500000500000500000500000500000500000500000500000500000500000500000500000516090500000500000500000500000500000500000500000500000500000500000500000500000500000516090500000500000500000500000500000500000500000500000500000500000500000500000500000516090500000500000500000500000500000500000500000500000500000500000500000500000500000516090500000500000500000500000500000500000500000500000500000500000500000500000500000516090500000500000500000500000500000500000500000500000500000500000500000500000500000516090500000500000500000500000500000500000500000500000500000500000500000500000500000516090500000500000500000500000500000500000500000500000500000500000500000500000500000516090500000500000500000500000500000500000500000500000500000500000500000500000500000516090500000500000500000500000500000500000500000500000500000500000500000500000500000516090500000500000500000500000500000500000500000500000500000500000500000500000500000516090⟩

def se3Cert14 : Cert := ⟨217418231158186626314087189670312295311625193320236601189130311635218447181438217418000000219762181311178996221255308711219452183921271698271018182277279349279340231158219762000000182685312597312290307911189252306843188057237764197952214326186299186626181311182685000000178378308819173932308106311359228920231802313436176969305651314087178996312597178378000000189451177984188934312916228905230824313556308229180306189670221255312290308819189451000000310077230360309119190326234496193776181443215773312295308711307911173932177984310077000000309579184552227339229418185111176290184410311625219452189252308106188934230360309579000000194067236877191658312880180378217740193320183921306843311359312916309119184552194067000000186829240869225269216694216591236601271698188057228920228905190326227339236877186829000000196771243277268585267253189130271018237764231802230824234496229418191658240869196771000000189837269515271377311635182277197952313436313556193776185111312880225269243277189837000000216239218849218447279349214326176969308229181443176290180378216694268585269515216239000000277621181438279340186299305651180306215773184410217740216591267253271377218849277621000000, 181438178996182685173932177984181443173932180378183921186829189130182277176290180306, 72264, 72281, 99999020827016974031474003785030300003929003984028926015599030506003983020519033533020827099999020131033584034527019696004230020222032538008629008736033195007502007504016974020131099999033031003904003929004300030459004394030919015316027238021771031601031474033584033031099999034781004221036637004283004006017565016807003837035364004502003785034527003904034781099999030383034943030581003878017569017062003827004272033992030300019696003929004221030383099999004113017183004195030050016121028757033531021326003929004230004300036637034943004113099999004155032288017990017432032067035646032344003984020222030459004283030581017183004155099999028650015532029547003881033962020731028926032538004394004006003878004195032288028650099999031395014579018558021046021077015599008629030919017565017569030050017990015532031395099999027662014026009125009343030506008736015316016807017062016121017432029547014579027662099999030236008974008679003983033195027238003837003827028757032067003881018558014026030236099999021184020400020519007502021771035364004272033531035646033962021046009125008974021184099999007746033533007504031601004502033992021326032344020731021077009343008679020400007746099999, 100000020856017000031507003795030333003939003994028959015624030539003993020548033567020856100000020159033619034561019723004241020250032572008646008753033229007518007520017000020159100000033066003915003939004311030493004406030952015340027270021800031635031507033619033066100000034816004231036672004294004016017591016833003847035398004514003795034561003915034816100000030417034978030615003889017595017087003837004283034026030333019723003939004231030417100000004124017209004205030083016146028790033565021354003939004241004311036672034978004124100000004166032322018016017458032101035681032378003994020250030493004294030615017209004166100000028682015556029580003892033997020759028959032572004406004016003889004205032322028682100000031428014603018585021074021105015624008646030952017591017595030083018016015556031428100000027694014049009142009361030539008753015340016833017087016146017458029580014603027694100000030269008992008697003993033229027270003847003837028790032101003892018585014049030269100000021212020428020548007518021800035398004283033565035681033997021074009142008992021212100000007762033567007520031635004514034026021354032378020759021105009361008697020428007762100000, 521220497973500293492205505359493465505154505092493554501803492476505274498329491037497973521074498406492498492005498607506888498245491231503513503600490855503624503884500293498406520902491964505284504998505073493389505090492478501656493816498318491520492205492498491964525415492417504984491677505238505276498505498554505343492293506356505359492005505284492417524818492656492002492577505261498194498278505292506491492354493465498607504998504984492656520810505164500108505158492604501652493642490968498314505154506888505073491677492002505164525367505113492116498388498302492199492244493028505092498245493389505238492577500108505113520942493611501870492712505203490879498231493554491231505090505276505261505158492116493611521111492358501958499970498256498194501803503513492478498505498194492604498388501870492358516835496998501977503682503512492476503600501656498554498278501652498302492712501958496998516569492631503673503738505274490855493816505343505292493642492199505203499970501977492631520997498178497951498329503624498318492293506491490968492244490879498256503682503673498178521583503692491037503884491520506356492354498314493028498231498194503512503738497951503692520553⟩

def e3Cert14 : ℕ × ℕ × Cert := ⟨52534086298000000157074000000157045157022000000096184000000157011055826000000052534000000059744000000000000063875156788058817000000139215138649000000145048145063086298059744000000000000157065157047156689000000156536000000098154000000041135000000000000000000000000000000000000156802000000156714157000081804087541157070000000156357157074000000157065000000000000000000000000000000157059081772085628157078156726000000000000063875157047156802000000000000156920084723156832000000092503000000000000046843157045156788156689000000000000156920000000156865000000078471082821000000000000000000157022058817000000156714000000084723156865000000000000096660000000157057000000053567000000000000156536157000157059156832000000000000000000000000103135073848050121049734096184139215000000081804081772000000078471096660000000000000000000106822136530135321000000138649098154087541085628092503082821000000103135000000000000000000137362138949157011000000000000157070157078000000000000157057073848106822000000000000048523057035055826145048041135000000156726000000000000000000050121136530137362048523000000143831000000145063000000156357000000046843000000053567049734135321138949057035143831000000, 0, 217418231158186626314087189670312295311625193320236601189130311635218447181438217418000000219762181311178996221255308711219452183921271698271018182277279349279340231158219762000000182685312597312290307911189252306843188057237764197952214326186299186626181311182685000000178378308819173932308106311359228920231802313436176969305651314087178996312597178378000000189451177984188934312916228905230824313556308229180306189670221255312290308819189451000000310077230360309119190326234496193776181443215773312295308711307911173932177984310077000000309579184552227339229418185111176290184410311625219452189252308106188934230360309579000000194067236877191658312880180378217740193320183921306843311359312916309119184552194067000000186829240869225269216694216591236601271698188057228920228905190326227339236877186829000000196771243277268585267253189130271018237764231802230824234496229418191658240869196771000000189837269515271377311635182277197952313436313556193776185111312880225269243277189837000000216239218849218447279349214326176969308229181443176290180378216694268585269515216239000000277621181438279340186299305651180306215773184410217740216591267253271377218849277621000000, 0, 35, 40, 24302000000000000000000000000000000000000000000000000000000000000000000000000000000000000024302000000000000000000000000000000000000000000000000000000000000000000000000000000000000024302000000000000000000000000000000000000000000000000000000000000000000000000000000000000024302000000000000000000000000000000000000000000000000000000000000000000000000000000000000024302000000000000000000000000000000000000000000000000000000000000000000000000000000000000024302000000000000000000000000000000000000000000000000000000000000000000000000000000000000024302000000000000000000000000000000000000000000000000000000000000000000000000000000000000024302000000000000000000000000000000000000000000000000000000000000000000000000000000000000024302000000000000000000000000000000000000000000000000000000000000000000000000000000000000024302000000000000000000000000000000000000000000000000000000000000000000000000000000000000024302000000000000000000000000000000000000000000000000000000000000000000000000000000000000024302000000000000000000000000000000000000000000000000000000000000000000000000000000000000024302000000000000000000000000000000000000000000000000000000000000000000000000000000000000024302, 100000000001000001000001000001000001000001000001000001000001000001000001000001000001000001100000000001000001000001000001000001000001000001000001000001000001000001000001000001000001100000000001000001000001000001000001000001000001000001000001000001000001000001000001000001100000000001000001000001000001000001000001000001000001000001000001000001000001000001000001100000000001000001000001000001000001000001000001000001000001000001000001000001000001000001100000000001000001000001000001000001000001000001000001000001000001000001000001000001000001100000000001000001000001000001000001000001000001000001000001000001000001000001000001000001100000000001000001000001000001000001000001000001000001000001000001000001000001000001000001100000000001000001000001000001000001000001000001000001000001000001000001000001000001000001100000000001000001000001000001000001000001000001000001000001000001000001000001000001000001100000000001000001000001000001000001000001000001000001000001000001000001000001000001000001100000000001000001000001000001000001000001000001000001000001000001000001000001000001000001100000000001000001000001000001000001000001000001000001000001000001000001000001000001000001100000, 516090500000500000500000500000500000500000500000500000500000500000500000500000500000500000516090500000500000500000500000500000500000500000500000500000500000500000500000500000500000516090500000500000500000500000500000500000500000500000500000500000500000500000500000500000516090500000500000500000500000500000500000500000500000500000500000500000500000500000500000516090500000500000500000500000500000500000500000500000500000500000500000500000500000500000516090500000500000500000500000500000500000500000500000500000500000500000500000500000500000516090500000500000500000500000500000500000500000500000500000500000500000500000500000500000516090500000500000500000500000500000500000500000500000500000500000500000500000500000500000516090500000500000500000500000500000500000500000500000500000500000500000500000500000500000516090500000500000500000500000500000500000500000500000500000500000500000500000500000500000516090500000500000500000500000500000500000500000500000500000500000500000500000500000500000516090500000500000500000500000500000500000500000500000500000500000500000500000500000500000516090500000500000500000500000500000500000500000500000500000500000500000500000500000500000516090⟩

def se3Cert15 : Cert := ⟨184312193418186748305802311124304774310664292681312152174442182323188655182994183927184312000000187736248416202111270942164082203539258548272252278279250864187273310775197848193418187736000000186580182030310966306616312575180351174663310978291256187922182037303678186748248416186580000000217205181015308433177096271268217824214971269089292932254645219735305802202111182030217205000000195160203014312412219758226880196600175691309198270187313840311124270942310966181015195160000000202361224864214086307292313220216482175783193055195181304774164082306616308433203014202361000000201134310427198544200053312539310391153932205138310664203539312575177096312412224864201134000000217961199701194599217441178340277045314048292681258548180351271268219758214086310427217961000000211333179366269135183782245256172306312152272252174663217824226880307292198544199701211333000000313142179455312939198002191383174442278279310978214971196600313220200053194599179366313142000000217123311039204231223130182323250864291256269089175691216482312539217441269135179455217123000000185346251289217268188655187273187922292932309198175783310391178340183782312939311039185346000000180189307621182994310775182037254645270187193055153932277045245256198002204231251289180189000000267140183927197848303678219735313840195181205138314048172306191383223130217268307621267140000000, 174442164082174663177096175691175783153932177096172306174663174442175691175783153932172306, 68576, 68593, 99999028591025187027654003186002823003260002852004255002757032577029370026934029106028741028591099999027280010286022190006684037071021721008512006511005761009833027455002845023629025187027280099999027718029486002833003128002730030154032484002832004387027210029483003341027654010286027718099999017573029889003001031476006640017400018210006935004232009164016872003186022190029486017573099999024567021892002740016865015000024061032056002950006785002651002823006684002833029889024567099999022107015512018466003080002690017777032018025318024559003260037071003128003001021892022107099999022514002868023390022877002732002870041754021204002852021721002730031476002740015512022514099999017361022996024765017507030967005909002639004255008512030154006640016865018466002868017361099999019281030551006928028798010895033478002757006511032484017400015000003080023390022996019281099999002695030515002707023576025925032577005761002832018210024061002690022877024765030551002695099999017596002828021496015962029370009833004387006935032056017777002732017507006928030515017596099999028191009756017556026934027455027210004232002950032018002870030967028798002707002828028191099999030219003057029106002845029483009164006785025318041754005909010895023576021496009756030219099999007207028741023629003341016872002651024559021204002639033478025925015962017556003057007207099999, 100000028626025220027688003195002831003270002861004266002765032612029405026968029140028775028626100000027314010306022220006699037108021751008530006526005775009853027489002854023660025220027314100000027752029520002842003137002739030189032520002841004399027243029518003351027688010306027752100000017601029924003011031511006656017427018238006950004243009183016899003195022220029520017601100000024599021923002749016892015025024093032091002959006801002660002831006699002842029924024599100000022138015537018495003089002698017805032053025351024592003270037108003137003011021923022138100000022545002877023421022908002741002879041792021234002861021751002739031511002749015537022545100000017389023027024798017534031002005923002647004266008530030189006656016892018495002877017389100000019310030586006944028832010916033514002765006526032520017427015025003089023421023027019310100000002703030550002716023607025958032612005775002841018238024093002698022908024798030586002703100000017624002837021527015988029405009853004399006950032091017805002741017534006944030550017624100000028225009776017583026968027489027243004243002959032053002879031002028832002716002837028225100000030254003067029140002854029518009183006801025351041792005923010916023607021527009776030254100000007223028775023660003351016899002660024592021234002647033514025958015988017583003067007223100000, 519856495392497146495353503022503052503154503142503775502967493992495086496771495139494916495392517937495590500944497021501986491802497274501341502161502426501135495577505624496608497146495590519944495266494621503247503192503005494906494129502879503748496668495276503138495353500944495266516476498685494009502613493801502466498756498741502319503797501109498700503022497021494621498685516751495887497100503006498735500566496007493656502988502204503118503052501986503247494009495887516970497454500417498666502942502997498799494345496598495858503154491802503192502613497100497454520250496838502611496979496914502652503271490730497478503142497274503005493801503006500417496838516916498660496149495874498594494132502487503083503775501341494906502466498735498666502611498660517169498702493807502321495205501015493435502967502161494129498756500566502942496979496149498702517091502980493792503179497044495778493992502426502879498741496007502997496914495874493807502980516993498914503030497479500271495086501135503748502319493656498799502652498594502321493792498914516797495324501104498685496771495577496668503797502988494345503271494132495205503179503030495324520175495168503066495139505624495276501109502204496598490730502487501015497044497479501104495168519315502108494916496608503138498700503118495858497478503083493435495778500271498685503066502108517004⟩

def e3Cert15 : ℕ × ℕ × Cert := ⟨156382156979156206156951152475157037000000000000000000000000000000000000000000000000114076000000138594000000000000126477139676144302117298000000156953000000000000000000000000000000000000156976156515157041000000000000156979151853000000000000155994000000114076000000000000051832000000156756000000138861053858043770136975152586121983059660156382000000000000051832000000000000000000157048059723077471000000000000156830137943157072156979138594156976000000000000000000000000072914040113156608157069049362000000000000000000156206000000156515156756000000000000000000000000156940000000000000157058156935000000000000156951000000157041000000157048072914000000000000054315000000000000052588000000143414157073152475126477000000138861059723040113156940054315000000025624000000137014000000109697000000157037139676000000053858077471156608000000000000025624000000157067000000157066000000000000000000144302156979043770000000157069000000000000000000157067000000051562156989000000068721000000117298151853136975000000049362157058052588137014000000051562000000000000117837052038000000000000000000152586156830000000156935000000000000157066156989000000000000000000156660000000156953000000121983137943000000000000143414109697000000000000117837000000000000135200000000000000155994059660157072000000000000157073000000000000068721052038156660135200000000, 0, 184312193418186748305802311124304774310664292681312152174442182323188655182994183927184312000000187736248416202111270942164082203539258548272252278279250864187273310775197848193418187736000000186580182030310966306616312575180351174663310978291256187922182037303678186748248416186580000000217205181015308433177096271268217824214971269089292932254645219735305802202111182030217205000000195160203014312412219758226880196600175691309198270187313840311124270942310966181015195160000000202361224864214086307292313220216482175783193055195181304774164082306616308433203014202361000000201134310427198544200053312539310391153932205138310664203539312575177096312412224864201134000000217961199701194599217441178340277045314048292681258548180351271268219758214086310427217961000000211333179366269135183782245256172306312152272252174663217824226880307292198544199701211333000000313142179455312939198002191383174442278279310978214971196600313220200053194599179366313142000000217123311039204231223130182323250864291256269089175691216482312539217441269135179455217123000000185346251289217268188655187273187922292932309198175783310391178340183782312939311039185346000000180189307621182994310775182037254645270187193055153932277045245256198002204231251289180189000000267140183927197848303678219735313840195181205138314048172306191383223130217268307621267140000000, 0, 35, 40, 24302000000000000000000000000000000000000000000000000000000000000000000000000000000000000000000024302000000000000000000000000000000000000000000000000000000000000000000000000000000000000000000024302000000000000000000000000000000000000000000000000000000000000000000000000000000000000000000024302000000000000000000000000000000000000000000000000000000000000000000000000000000000000000000024302000000000000000000000000000000000000000000000000000000000000000000000000000000000000000000024302000000000000000000000000000000000000000000000000000000000000000000000000000000000000000000024302000000000000000000000000000000000000000000000000000000000000000000000000000000000000000000024302000000000000000000000000000000000000000000000000000000000000000000000000000000000000000000024302000000000000000000000000000000000000000000000000000000000000000000000000000000000000000000024302000000000000000000000000000000000000000000000000000000000000000000000000000000000000000000024302000000000000000000000000000000000000000000000000000000000000000000000000000000000000000000024302000000000000000000000000000000000000000000000000000000000000000000000000000000000000000000024302000000000000000000000000000000000000000000000000000000000000000000000000000000000000000000024302000000000000000000000000000000000000000000000000000000000000000000000000000000000000000000024302, 100000000001000001000001000001000001000001000001000001000001000001000001000001000001000001000001100000000001000001000001000001000001000001000001000001000001000001000001000001000001000001000001100000000001000001000001000001000001000001000001000001000001000001000001000001000001000001000001100000000001000001000001000001000001000001000001000001000001000001000001000001000001000001000001100000000001000001000001000001000001000001000001000001000001000001000001000001000001000001000001100000000001000001000001000001000001000001000001000001000001000001000001000001000001000001000001100000000001000001000001000001000001000001000001000001000001000001000001000001000001000001000001100000000001000001000001000001000001000001000001000001000001000001000001000001000001000001000001100000000001000001000001000001000001000001000001000001000001000001000001000001000001000001000001100000000001000001000001000001000001000001000001000001000001000001000001000001000001000001000001100000000001000001000001000001000001000001000001000001000001000001000001000001000001000001000001100000000001000001000001000001000001000001000001000001000001000001000001000001000001000001000001100000000001000001000001000001000001000001000001000001000001000001000001000001000001000001000001100000000001000001000001000001000001000001000001000001000001000001000001000001000001000001000001100000, 516090500000500000500000500000500000500000500000500000500000500000500000500000500000500000500000516090500000500000500000500000500000500000500000500000500000500000500000500000500000500000500000516090500000500000500000500000500000500000500000500000500000500000500000500000500000500000500000516090500000500000500000500000500000500000500000500000500000500000500000500000500000500000500000516090500000500000500000500000500000500000500000500000500000500000500000500000500000500000500000516090500000500000500000500000500000500000500000500000500000500000500000500000500000500000500000516090500000500000500000500000500000500000500000500000500000500000500000500000500000500000500000516090500000500000500000500000500000500000500000500000500000500000500000500000500000500000500000516090500000500000500000500000500000500000500000500000500000500000500000500000500000500000500000516090500000500000500000500000500000500000500000500000500000500000500000500000500000500000500000516090500000500000500000500000500000500000500000500000500000500000500000500000500000500000500000516090500000500000500000500000500000500000500000500000500000500000500000500000500000500000500000516090500000500000500000500000500000500000500000500000500000500000500000500000500000500000500000516090500000500000500000500000500000500000500000500000500000500000500000500000500000500000500000516090⟩

def se3Cert16 : Cert := ⟨184221302943184800280048174941184959183868309265206061219187309386198403190213307859312271184221000000191962207543185944262836311996262421313958186136310633182439262181189015263810212711302943191962000000308806308823173563312407159621202400302967312520207976312873165840181276184636184800207543308806000000242587208495308873248893179629313632182600183723246585246051209691208067280048185944308823242587000000191380175136251945188025163518203772189638302799254326265726264558174941262836173563208495191380000000310210185863181689179704313365306152261550265729210166261690184959311996312407308873175136310210000000173600185196311477194041180565169725177298307915311911183868262421159621248893251945185863173600000000279583310568189533196653251747303252260567189020309265313958202400179629188025181689185196279583000000312479305865217974187172203447313602178021206061186136302967313632163518179704311477310568312479000000203148307517162218311033178388186963219187310633312520182600203772313365194041189533305865203148000000308958276133190582179819175227309386182439207976183723189638306152180565196653217974307517308958000000185899279404175737314033198403262181312873246585302799261550169725251747187172162218276133185899000000251023188390188019190213189015165840246051254326265729177298303252203447311033190582279404251023000000189845264533307859263810181276209691265726210166307915260567313602178388179819175737188390189845000000262593312271212711184636208067264558261690311911189020178021186963175227314033188019264533262593000000, 174941182439159621179629163518173563169725159621178021162218175227175737162218165840175737175227, 68324, 68341, 99999028363003313028139005438032099028078028500002869020669016801002861023188026096002963002677028363099999025457020204027699007693002694007755002574027626002780029060007792026540007548018639003313025457099999002900002899032677002669038827021849003311002662020070002640036016029520028202028139020204002900099999011249019909002895010026030178002594028996028557010461010564019543020041005438027699002899011249099999025668032018009473026911037054021402026309003324009058007269007438032099007693032677019909025668099999002808027730029356030148002610003081007888007268019399007867028078002694002669002895032018002808099999032661027986002727024709029803034315031125002960002700028500007755038827010026009473027730032661099999005491002785026348023791009508003290008040026538002869002574021849030178026911029356027986005491099999002664003101017135027232021507002596030830020669027626003311002594037054030148002727002785002664099999021604002987037641002755030680027311016801002780002662028996021402002610024709026348003101021604099999002890005896025961030102031980002861029060020070028557026309003081029803023791017135002987002890099999027717005511031768002570023188007792002640010461003324007888034315009508027232037641005896027717099999009637026774026913026096026540036016010564009058007268031125003290021507002755025961005511009637099999026232007441002963007548029520019543007269019399002960008040002596030680030102031768026774026232099999007729002677018639028202020041007438007867002700026538030830027311031980002570026913007441007729099999, 100000028397003323028173005451032135028112028535002878020699016828002870023220026130002972002686028397100000025490020234027733007710002703007772002582027660002789029094007809026574007564018667003323025490100000002909002908032713002677038865021880003321002670020099002648036054029554028237028173020234002909100000011270019939002904010046030213002602029031028591010481010584019572020071005451027733002908011270100000025701032054009492026944037091021432026342003333009077007285007454032135007710032713019939025701100000002816027764029390030183002618003090007905007285019428007884028112002703002677002904032054002816100000032697028021002735024742029838034351031160002969002708028535007772038865010046009492027764032697100000005504002793026381023823009527003300008057026572002878002582021880030213026944029390028021005504100000002673003110017162027266021538002604030865020699027660003321002602037091030183002735002793002673100000021635002996037678002764030715027345016828002789002670029031021432002618024742026381003110021635100000002899005910025994030137032016002870029094020099028591026342003090029838023823017162002996002899100000027751005525031804002578023220007809002648010481003333007905034351009527027266037678005910027751100000009657026807026946026130026574036054010584009077007285031160003300021538002764025994005525009657100000026266007458002972007564029554019572007285019428002969008057002604030715030137031804026807026266100000007746002686018667028237020071007454007884002708026572030865027345032016002578026946007458007746100000, 518512495166503165495111503187494361496129495682502927498015499808502971496745496070502515502550495166517187496313497912495923502829502856501309502702495959502728494924501309495922502790497303503165496313521029503246502028494933502618492442497610501858503308498086502160492868495433495725495111497912503246516691500724497972503956500993494751503325495062495095500884500859498058498257503187495923502028500724518532496386494144500757495817492693496972496243505219500867501649501575494361502829494933497972496386518279502639496352494892495262502562502468501586501725497713502795496129502856502618503956494144502639521297494152496118502614496647495903493933494344502612502758495682501309492442500993500757496352494152519111503338502130495847496576501041505030501653496141502927502702497610494751495817494892496118503338518637503161502788499985495869497079502577494703498015495959501858503325492693495262502614502130503161520980497775503149492521502095495274496043499808502728503308495062496972502562496647495847502788497775518348502869503205495945494755494418502971494924498086495095496243502468495903496576499985503149502869518644495946503167494313502539496745501309502160500884505219501586493933501041495869492521503205495946519075500815496313495915496070495922492868500859500867501725494344505030497079502095495945503167500815518217496253501581502515502790495433498058501649497713502612501653502577495274494755494313496313496253518080502832502550497303495725498257501575502795502758496141494703496043494418502539495915501581502832517803⟩

def e3Cert16 : ℕ × ℕ × Cert := ⟨155823000000145527000000000000000000156835000000058058156852000000000000156679157050000000000000000000000000000000131019157031130604157080000000156940000000130347000000132004033651155823000000000000156783156794000000157038000000000000155837157044000000157066000000000000000000000000000000156783000000105805000000156800114711000000157070000000000000111571110815009334000000145527000000156794105805000000000000000000118691000000000000000000000000155795121571133862132738000000131019000000000000000000000000156929000000000000000000157063156430129699133877015853129841000000157031157038156800000000156929000000000000000000157006000000000000000000000000156678157029000000130604000000114711118691000000000000000000145217156958000000000000118418155895128644000000156835157080000000000000000000000000000000145217000000157059156396054338000000000000157078000000000000000000155837157070000000000000157006156958157059000000000000156636000000156979000000000000058058156940157044000000000000157063000000000000156396000000000000156808142747000000000000000000156852000000000000000000000000156430000000000000054338156636156808000000000000145081000000157070000000130347157066111571155795129699000000118418000000000000142747000000000000117498000000000000000000000000000000110815121571133877000000155895000000156979000000145081117498000000000000132721156679132004000000009334133862015853156678128644157078000000000000000000000000000000000000130772157050033651000000000000132738129841157029000000000000000000000000157070000000132721130772000000, 0, 184221302943184800280048174941184959183868309265206061219187309386198403190213307859312271184221000000191962207543185944262836311996262421313958186136310633182439262181189015263810212711302943191962000000308806308823173563312407159621202400302967312520207976312873165840181276184636184800207543308806000000242587208495308873248893179629313632182600183723246585246051209691208067280048185944308823242587000000191380175136251945188025163518203772189638302799254326265726264558174941262836173563208495191380000000310210185863181689179704313365306152261550265729210166261690184959311996312407308873175136310210000000173600185196311477194041180565169725177298307915311911183868262421159621248893251945185863173600000000279583310568189533196653251747303252260567189020309265313958202400179629188025181689185196279583000000312479305865217974187172203447313602178021206061186136302967313632163518179704311477310568312479000000203148307517162218311033178388186963219187310633312520182600203772313365194041189533305865203148000000308958276133190582179819175227309386182439207976183723189638306152180565196653217974307517308958000000185899279404175737314033198403262181312873246585302799261550169725251747187172162218276133185899000000251023188390188019190213189015165840246051254326265729177298303252203447311033190582279404251023000000189845264533307859263810181276209691265726210166307915260567313602178388179819175737188390189845000000262593312271212711184636208067264558261690311911189020178021186963175227314033188019264533262593000000, 0, 35, 40, 24302000000000000000000000000000000000000000000000000000000000000000000000000000000000000000000000000024302000000000000000000000000000000000000000000000000000000000000000000000000000000000000000000000000024302000000000000000000000000000000000000000000000000000000000000000000000000000000000000000000000000024302000000000000000000000000000000000000000000000000000000000000000000000000000000000000000000000000024302000000000000000000000000000000000000000000000000000000000000000000000000000000000000000000000000024302000000000000000000000000000000000000000000000000000000000000000000000000000000000000000000000000024302000000000000000000000000000000000000000000000000000000000000000000000000000000000000000000000000024302000000000000000000000000000000000000000000000000000000000000000000000000000000000000000000000000024302000000000000000000000000000000000000000000000000000000000000000000000000000000000000000000000000024302000000000000000000000000000000000000000000000000000000000000000000000000000000000000000000000000024302000000000000000000000000000000000000000000000000000000000000000000000000000000000000000000000000024302000000000000000000000000000000000000000000000000000000000000000000000000000000000000000000000000024302000000000000000000000000000000000000000000000000000000000000000000000000000000000000000000000000024302000000000000000000000000000000000000000000000000000000000000000000000000000000000000000000000000024302000000000000000000000000000000000000000000000000000000000000000000000000000000000000000000000000024302, 100000000001000001000001000001000001000001000001000001000001000001000001000001000001000001000001000001100000000001000001000001000001000001000001000001000001000001000001000001000001000001000001000001000001100000000001000001000001000001000001000001000001000001000001000001000001000001000001000001000001000001100000000001000001000001000001000001000001000001000001000001000001000001000001000001000001000001000001100000000001000001000001000001000001000001000001000001000001000001000001000001000001000001000001000001100000000001000001000001000001000001000001000001000001000001000001000001000001000001000001000001000001100000000001000001000001000001000001000001000001000001000001000001000001000001000001000001000001000001100000000001000001000001000001000001000001000001000001000001000001000001000001000001000001000001000001100000000001000001000001000001000001000001000001000001000001000001000001000001000001000001000001000001100000000001000001000001000001000001000001000001000001000001000001000001000001000001000001000001000001100000000001000001000001000001000001000001000001000001000001000001000001000001000001000001000001000001100000000001000001000001000001000001000001000001000001000001000001000001000001000001000001000001000001100000000001000001000001000001000001000001000001000001000001000001000001000001000001000001000001000001100000000001000001000001000001000001000001000001000001000001000001000001000001000001000001000001000001100000000001000001000001000001000001000001000001000001000001000001000001000001000001000001000001000001100000, 516090500000500000500000500000500000500000500000500000500000500000500000500000500000500000500000500000516090500000500000500000500000500000500000500000500000500000500000500000500000500000500000500000500000516090500000500000500000500000500000500000500000500000500000500000500000500000500000500000500000500000516090500000500000500000500000500000500000500000500000500000500000500000500000500000500000500000500000516090500000500000500000500000500000500000500000500000500000500000500000500000500000500000500000500000516090500000500000500000500000500000500000500000500000500000500000500000500000500000500000500000500000516090500000500000500000500000500000500000500000500000500000500000500000500000500000500000500000500000516090500000500000500000500000500000500000500000500000500000500000500000500000500000500000500000500000516090500000500000500000500000500000500000500000500000500000500000500000500000500000500000500000500000516090500000500000500000500000500000500000500000500000500000500000500000500000500000500000500000500000516090500000500000500000500000500000500000500000500000500000500000500000500000500000500000500000500000516090500000500000500000500000500000500000500000500000500000500000500000500000500000500000500000500000516090500000500000500000500000500000500000500000500000500000500000500000500000500000500000500000500000516090500000500000500000500000500000500000500000500000500000500000500000500000500000500000500000500000516090500000500000500000500000500000500000500000500000500000500000500000500000500000500000500000500000516090⟩

def se3Cert17 : Cert := ⟨173096310337170165307521313951223670204043309850185330171330195975196971308853312025222147205106173096000000170344267641185456219088189236313140303302184994312278314041210409267978181553275663182188310337170344000000310846214519194025311150167615199513313499167302289100300176214667176242313536174145170165267641310846000000181917201443310288227629205259272825267920164087171280182905310686313808227640307521185456214519181917000000169997180799274363215232182325269675164695313222264912181567309866314032313951219088194025201443169997000000303810168861312563192615299983301997200567220503305939180045204018223670189236311150310288180799303810000000180395169315187685273880210808167220312232182150255097262881204043313140167615227629274363168861180395000000200334267029181533308189169106309631311061266262223721309850303302199513205259215232312563169315200334000000191005220472200008309789172741312592298977169777185330184994313499272825182325192615187685267029191005000000183987313824309221182487312468190794267554171330312278167302267920269675299983273880181533220472183987000000208260310519183127181042185967310782195975314041289100164087164695301997210808308189200008313824208260000000302314310113177954171573174969196971210409300176171280313222200567167220169106309789309221310519302314000000175535183672210200311041308853267978214667182905264912220503312232309631172741182487183127310113175535000000188002184731273001312025181553176242310686181567305939182150311061312592312468181042177954183672188002000000180686312759222147275663313536313808309866180045255097266262298977190794185967171573210200184731180686000000178529205106182188174145227640314032204018262881223721169777267554310782174969311041273001312759178529000000, 170165170344167302164087164695168861167220167615169315182325167302164087167220172741176242171573169777, 67777, 67794, 99999032286002642033535002821002426015144020787002672027363033036023478023134002735002539015537020448032286099999033458006703027315016349025894002473003109027492002524002421018817006658028832005687028582002642033458099999002611017617024162002592034643022271002452034780004271003339017575030975002450031846033535006703002611099999028689021630002645014157020400006031006665036207033057028301002620002434014154002821027315017617028689099999033608029131005842017415028528006432035935002468007081028827002671002422002426016349024162021630033608099999003073034099002507024664003353003203021919015969002926029431020795015144025894002592002645029131003073099999029292033902026471005901018698034816002527028597008584007373020787002473034643014157005842034099029292099999021997006786028840002778033993002686002597006892015131002672003109022271020400017415002507033902021997099999025245015978022105002676032436002505003430033703027363027492002452006031028528024664026471006786025245099999027880002434002712028465002513025322006715033036002524034780006665006432003353005901028840015978027880099999019467002631028214029034027120002614023478002421004271036207035935003203018698002778022105002434019467099999003180002656030274032932031502023134018817003339033057002468021919034816033993002676002712002631003180099999031267028002018880002599002735006658017575028301007081015969002527002686032436028465028214002656031267099999026353027593006009002539028832030975002620028827002926028597002597002505002513029034030274028002026353099999029176002496015537005687002450002434002671029431008584006892003430025322027120032932018880027593029176099999030041020448028582031846014154002422020795007373015131033703006715002614031502002599006009002496030041099999, 100000032322002650033572002830002434015170020817002681027398033072023510023166002744002547015563020478032322100000033495006719027349016375025927002481003119027526002532002429018846006673028867005701028617002650033495100000002619017645024194002600034680022302002460034817004282003348017603031011002458031882033572006719002619100000028723021661002653014182020430006045006681036244033094028336002629002443014179002830027349017645028723100000033644029166005856017443028563006447035972002477007097028861002680002430002434016375024194021661033644100000003083034136002515024696003363003213021950015996002935029466020825015170025927002600002653029166003083100000029327033939026505005915018727034853002535028632008603007390020817002481034680014182005856034136029327100000022028006802028875002786034030002694002606006908015157002681003119022302020430017443002515033939022028100000025278016004022137002685032472002514003440033739027398027526002460006045028563024696026505006802025278100000027915002442002720028499002521025355006730033072002532034817006681006447003363005915028875016004027915100000019496002639028249029069027154002623023510002429004282036244035972003213018727002786022137002442019496100000003190002664030310032968031538023166018846003348033094002477021950034853034030002685002720002639003190100000031303028037018909002607002744006673017603028336007097015996002535002694032472028499028249002664031303100000026386027627006023002547028867031011002629028861002935028632002606002514002521029069030310028037026386100000029211002504015563005701002458002443002680029466008603006908003440025355027154032968018909027627029211100000030076020478028617031882014179002430020825007390015157033739006730002623031538002607006023002504030076100000, 518921493544502832494278502810502660499857497688502618496197493450497375497556502867502613499877497857493544519123493917500919496786499738497205503794502545496212503673503581498200500507496024501681495207502832493917520545501128498646497393503583494227497649502978493763501814502142498546494955503702494868494278500919501128519145495591497495503839500001497759501889501095493787494340495158502577503888499945502810496786498646495591519795493331496327501207499441495859500801493543503472501363496305503448503761502660499738497393497495493331518464502760494162502957496781502487502716497908499628502518494211497768499857497205503583503839496327502760519481495193493322496445501542498472493680503595496134500231500855497688503794494227500001501207494162495193519129497563501496495356501192494440503689502797500874499928502618502545497649497759499441502957493322497563518783496949499756497930502850493565502633502576494066496197496212502978501889495859496781496445501496496949518242496072502967502864495997503555496588501525493450503673493763501095500801502487501542495356499756496072519483498124503412496665496106497002503712497375503581501814493787493543502716498472501192497930502967498124520698502437503492495288494211494947497556498200502142494340503472497908493680494440502850502864503412502437520185494339495558498129501272502867500507498546495158501363499628503595503689493565495997496665503492494339518885496569496688501156502613496024494955502577496305502518496134502797502633503555496106495288495558496569520239496052502735499877501681503702503888503448494211500231500874502576496588497002494211498129496688496052518764494756497857495207494868499945503761497768500855499928494066501525503712494947501272501156502735494756518573⟩

def e3Cert17 : ℕ × ℕ × Cert := ⟨156932000000156642157076070072000000156900000000000000000000000000156795157017066210000000000000000000000000135659000000057764000000157069155896000000157034157072018355135976000000142387000000156932000000000000156968041949000000156983000000000000157070000000150824155133042528000000157070000000000000135659156968000000000000000000156934079102000000140145135919000000000000000000156955157078079107156642000000041949000000000000000000000000141397044774000000137481000000157073133079000000156896157078157076057764000000000000000000000000156003000000157062000000155074155618000000061830156405000000000000070072000000156983156934000000156003000000000000000000000000140995021805000000157045000000122502131056000000157069000000079102141397000000000000000000000000135101000000156730000000156877156990134380070185156900155896000000000000044774157062000000000000000000000000061718000000156886000000157054154782000000000000000000157070140145000000000000000000135101000000000000000000157079156838000000157042000000135585000000157034000000135919137481155074140995000000061718000000000000000000156958000000000000000000156970000000157072150824000000000000155618021805156730000000157079000000000000155673156910000000000000000000000000018355155133000000157073000000000000000000156886156838156958155673000000000000000000016178156987156795135976042528000000133079061830157045156877000000000000000000156910000000000000000000000000140313157017000000000000156955000000156405000000156990157054157042000000000000000000000000000000000000157067066210142387157070157078156896000000122502134380154782000000000000000000016178000000000000000000000000000000000000000000079107157078000000131056070185000000135585156970000000156987140313157067000000000000, 0, 173096310337170165307521313951223670204043309850185330171330195975196971308853312025222147205106173096000000170344267641185456219088189236313140303302184994312278314041210409267978181553275663182188310337170344000000310846214519194025311150167615199513313499167302289100300176214667176242313536174145170165267641310846000000181917201443310288227629205259272825267920164087171280182905310686313808227640307521185456214519181917000000169997180799274363215232182325269675164695313222264912181567309866314032313951219088194025201443169997000000303810168861312563192615299983301997200567220503305939180045204018223670189236311150310288180799303810000000180395169315187685273880210808167220312232182150255097262881204043313140167615227629274363168861180395000000200334267029181533308189169106309631311061266262223721309850303302199513205259215232312563169315200334000000191005220472200008309789172741312592298977169777185330184994313499272825182325192615187685267029191005000000183987313824309221182487312468190794267554171330312278167302267920269675299983273880181533220472183987000000208260310519183127181042185967310782195975314041289100164087164695301997210808308189200008313824208260000000302314310113177954171573174969196971210409300176171280313222200567167220169106309789309221310519302314000000175535183672210200311041308853267978214667182905264912220503312232309631172741182487183127310113175535000000188002184731273001312025181553176242310686181567305939182150311061312592312468181042177954183672188002000000180686312759222147275663313536313808309866180045255097266262298977190794185967171573210200184731180686000000178529205106182188174145227640314032204018262881223721169777267554310782174969311041273001312759178529000000, 0, 35, 40, 24302000000000000000000000000000000000000000000000000000000000000000000000000000000000000000000000000000000024302000000000000000000000000000000000000000000000000000000000000000000000000000000000000000000000000000000024302000000000000000000000000000000000000000000000000000000000000000000000000000000000000000000000000000000024302000000000000000000000000000000000000000000000000000000000000000000000000000000000000000000000000000000024302000000000000000000000000000000000000000000000000000000000000000000000000000000000000000000000000000000024302000000000000000000000000000000000000000000000000000000000000000000000000000000000000000000000000000000024302000000000000000000000000000000000000000000000000000000000000000000000000000000000000000000000000000000024302000000000000000000000000000000000000000000000000000000000000000000000000000000000000000000000000000000024302000000000000000000000000000000000000000000000000000000000000000000000000000000000000000000000000000000024302000000000000000000000000000000000000000000000000000000000000000000000000000000000000000000000000000000024302000000000000000000000000000000000000000000000000000000000000000000000000000000000000000000000000000000024302000000000000000000000000000000000000000000000000000000000000000000000000000000000000000000000000000000024302000000000000000000000000000000000000000000000000000000000000000000000000000000000000000000000000000000024302000000000000000000000000000000000000000000000000000000000000000000000000000000000000000000000000000000024302000000000000000000000000000000000000000000000000000000000000000000000000000000000000000000000000000000024302000000000000000000000000000000000000000000000000000000000000000000000000000000000000000000000000000000024302, 100000000001000001000001000001000001000001000001000001000001000001000001000001000001000001000001000001000001100000000001000001000001000001000001000001000001000001000001000001000001000001000001000001000001000001000001100000000001000001000001000001000001000001000001000001000001000001000001000001000001000001000001000001000001100000000001000001000001000001000001000001000001000001000001000001000001000001000001000001000001000001000001100000000001000001000001000001000001000001000001000001000001000001000001000001000001000001000001000001000001100000000001000001000001000001000001000001000001000001000001000001000001000001000001000001000001000001000001100000000001000001000001000001000001000001000001000001000001000001000001000001000001000001000001000001000001100000000001000001000001000001000001000001000001000001000001000001000001000001000001000001000001000001000001100000000001000001000001000001000001000001000001000001000001000001000001000001000001000001000001000001000001100000000001000001000001000001000001000001000001000001000001000001000001000001000001000001000001000001000001100000000001000001000001000001000001000001000001000001000001000001000001000001000001000001000001000001000001100000000001000001000001000001000001000001000001000001000001000001000001000001000001000001000001000001000001100000000001000001000001000001000001000001000001000001000001000001000001000001000001000001000001000001000001100000000001000001000001000001000001000001000001000001000001000001000001000001000001000001000001000001000001100000000001000001000001000001000001000001000001000001000001000001000001000001000001000001000001000001000001100000000001000001000001000001000001000001000001000001000001000001000001000001000001000001000001000001000001100000, 516090500000500000500000500000500000500000500000500000500000500000500000500000500000500000500000500000500000516090500000500000500000500000500000500000500000500000500000500000500000500000500000500000500000500000500000516090500000500000500000500000500000500000500000500000500000500000500000500000500000500000500000500000500000516090500000500000500000500000500000500000500000500000500000500000500000500000500000500000500000500000500000516090500000500000500000500000500000500000500000500000500000500000500000500000500000500000500000500000500000516090500000500000500000500000500000500000500000500000500000500000500000500000500000500000500000500000500000516090500000500000500000500000500000500000500000500000500000500000500000500000500000500000500000500000500000516090500000500000500000500000500000500000500000500000500000500000500000500000500000500000500000500000500000516090500000500000500000500000500000500000500000500000500000500000500000500000500000500000500000500000500000516090500000500000500000500000500000500000500000500000500000500000500000500000500000500000500000500000500000516090500000500000500000500000500000500000500000500000500000500000500000500000500000500000500000500000500000516090500000500000500000500000500000500000500000500000500000500000500000500000500000500000500000500000500000516090500000500000500000500000500000500000500000500000500000500000500000500000500000500000500000500000500000516090500000500000500000500000500000500000500000500000500000500000500000500000500000500000500000500000500000516090500000500000500000500000500000500000500000500000500000500000500000500000500000500000500000500000500000516090500000500000500000500000500000500000500000500000500000500000500000500000500000500000500000500000500000516090⟩

def se3Cert18 : Cert := ⟨311269173981180663211126214306181413312992214521308437211353172146311379276626279243310874173837171542311269000000287294173835311138313537174203206986313720210466312642281587212479173534174826212109171487174670173981287294000000210815179409178122207094211453314060180114312205292289176521307702311875205708177650310046180663173835210815000000307550177124180958285168306388289461176000208885210838310930176284211904310340310700211126311138179409307550000000278087173569311253169066180925205848306260309941216227169748173700212830279767214306313537178122177124278087000000308308173696199536311122172309309489174084170287209557311721212672289809181413174203207094180958173569308308000000209895178268206694304977207769285351177409310426292991310925311489312992206986211453285168311253173696209895000000175978287715309160173393208876172580313999174198174894312039214521313720314060306388169066199536178268175978000000312733275158175894173737211213168240311252287660211079308437210466180114289461180925311122206694287715312733000000172494213864174717176588311625205868307932175706211353312642312205176000205848172309304977309160275158172494000000185297313423170001212867178906282906214454172146281587292289208885306260309489207769173393175894213864185297000000208907311330307408178637312541179447311379212479176521210838309941174084285351208876173737174717313423208907000000313962175693279400312723175024276626173534307702310930216227170287177409172580211213176588170001311330313962000000291761311680199293206062279243174826311875176284169748209557310426313999168240311625212867307408175693291761000000180904206094201022310874212109205708211904173700311721292991174198311252205868178906178637279400311680180904000000176280312219173837171487177650310340212830212672310925174894287660307932282906312541312723199293206094176280000000169672171542174670310046310700279767289809311489312039211079175706214454179447175024206062201022312219169672000000, 171542171487173981173835169066170287173569172580168240172494170001172146173737170001168240173700169672169672, 68530, 68547, 99999002800032721029981019300018361029682002691018298002987019232033497002793005937005626002825032781033755002800099999004755032782002808002657032628020574002646019500002713005360018897032909032367019006033778032432032721004755099999019394030485031007020540019202002625030201002740004273031663003037002761020978031200002879029981032782019394099999003048031415029863004973003129004540031879019983019387002822031761019067002860002837019300002808030485003048099999005762032894002801034822029876020933003138002886017809034526032839018793005566018361002657031007031415005762099999002996032841023006002809033428002916032678034293019776002771018839004507029682032628020540029863032894002996099999019673030947020665003230020328004954031298002854004209002822002786002691020574019202004973002801032841019673099999031888004712002938032969019985033313002629032630032339002751018298002646002625003129034822023006030947031888099999002707006117031923032824019274035181002801004718019315002987019500030201004540029876002809020665004712002707099999033349018489032413031636002777020927003022032001019232002713002740031879020933033428003230002938006117033349099999028162002664034417018782030688005215018318033497005360004273019983003138002916020328032969031923018489028162099999019976002796003058030797002719030469002793018897031663019387002886032678004954019985032824032413002664019976099999002631032006005608002708032284005937032909003037002822017809034293031298033313019274031636034417002796002631099999004322002773023089020865005626032367002761031761034526019776002854002629035181002777018782003058032006004322099999029885020855022507002825019006020978019067032839002771004209032630002801020927030688030797005608002773029885099999031763002739032781033778031200002860018793018839002822032339004718003022005215002719002708023089020855031763099999034559033755032432002879002837005566004507002786002751019315032001018318030469032284020865022507002739034559099999, 100000002808032757030016019329018389029717002699018326002996019261033533002801005951005640002834032817033791002808100000004767032818002817002666032664020603002654019529002721005373018925032945032403019035033814032468032757004767100000019423030520031042020569019231002633030236002749004284031699003047002770021008031235002888030016032818019423100000003057031451029898004986003139004552031914020012019416002830031797019096002869002845019329002817030520003057100000005776032930002810034858029911020963003148002895017836034562032875018821005580018389002666031042031451005776100000003005032877023038002818033464002925032714034330019806002779018868004519029717032664020569029898032930003005100000019702030983020695003240020358004967031334002863004220002831002794002699020603019231004986002810032877019702100000031923004725002947033005020015033349002637032666032374002759018326002654002633003139034858023038030983031923100000002715006131031958032860019303035218002810004730019343002996019529030236004552029911002818020695004725002715100000033385018517032448031671002786020957003031032036019261002721002749031914020963033464003240002947006131033385100000028196002673034453018810030723005228018346033533005373004284020012003148002925020358033005031958018517028196100000020005002805003067030833002728030505002801018925031699019416002895032714004967020015032860032448002673020005100000002639032042005622002716032320005951032945003047002830017836034330031334033349019303031671034453002805002639100000004333002782023120020895005640032403002770031797034562019806002863002637035218002786018810003067032042004333100000029920020885022538002834019035021008019096032875002779004220032666002810020957030723030833005622002782029920100000031799002748032817033814031235002869018821018868002831032374004730003031005228002728002716023120020885031799100000034595033791032468002888002845005580004519002794002759019343032036018346030505032320020895022538002748034595100000, 520986503982494529495213498732498774495353503410498913503292498619494304503370501020501247503304493841493678503982521545501389493549503319503443493647498493503452498672503468501097498681494602494576498735494734495103494529501389520590498588495140495059498334498700503431494386503395501756493887503126503248498322495036503749495213493549498588520499503262494969494559501314503207501538494757498420498717503872494957498644503266503310498732503319495140503262521297501177494541503336493407495350498457503251504014498973493561494631498768501215498774503443495059494969501177521378503206494872498092503871493766503301494576493657498654503317498739501594495353493647498334494559494541503206520530498611495116498309503153498513501281495191503834501758503360503336503410498493498700501314503336494872498611521444494826501399503863493661498564494721503399493724494741503398498913503452503431503207493407498092495116494826521565503256501118494955494856498633493552503927501396498720503292498672494386501538495350503871498309501399503256520765494516498791493617495034503345498287503292494881498619503468503395494757498457493766503153503863501118494516520983495672503406493596498750494938501311498781494304501097501756498420503251503301498513493661494955498791495672520595498596503262503162494157503941495183503370498681493887498717504014494576501281498564494856493617503406498596521210503503495128501023503428494670501020494602503126503872498973493657495191494721498633495034493596503262503503521593501652503430498129498405501247494576503248494957493561498654503834503399493552503345498750503162495128501652521416495442498365498144503304498735498322498644494631503317501758493724503927498287494938494157501023503430495442520730494961503307493841494734495036503266498768498739503360494741501396503292501311503941503428498129498365494961521481493613493678495103503749503310501215501594503336503398498720494881498781495183494670498405498144503307493613521365⟩

def e3Cert18 : ℕ × ℕ × Cert := ⟨156999000000000000024195041061000000157068041949156751025732000000157006143106144988156975000000000000156999000000149893000000156996157065000000000000157075018907157057146543032420000000000000030406000000000000000000149893000000021839000000000000000000026416157074000000157036152320000000156660157030000000000000156919000000000000021839000000156641000000000000148735156477150991000000000000021988156976000000029250156951156961024195156996000000156641000000144158000000156998000000000000000000156461156898048474000000000000034266145340041061157065000000000000144158000000156730000000000000156984000000156865000000000000006385157015033466151182000000000000000000000000000000156730000000012520000000000000156259000000148829000000156933152622156977157009157068000000026416148735156998000000012520000000000000150119156831000000000000000000157078000000000000157037041949157075157074156477000000000000000000000000000000157052142002000000000000024752000000156992150102023821156751018907000000150991000000156984000000150119157052000000000000039120000000000000157020000000156689000000025732157057157036000000000000000000156259156831142002000000000000000000157063000000034451000000147379041657000000146543152320000000156461156865000000000000000000039120000000000000000000156992156621000000157054000000157006032420000000021988156898000000148829000000000000000000157063000000000000157071000000145084157042000000143106000000156660156976048474000000000000000000024752000000000000156992157071000000152081157023000000000000144988000000157030000000000000006385156933157078000000157020034451156621000000152081000000000000000000000000156975030406000000029250000000157015152622000000156992000000000000000000145084157023000000000000000000157053000000000000000000156951034266033466156977000000150102156689147379157054157042000000000000000000000000000000000000000000156919156961145340151182157009157037023821000000041657000000000000000000000000157053000000000000, 0, 311269173981180663211126214306181413312992214521308437211353172146311379276626279243310874173837171542311269000000287294173835311138313537174203206986313720210466312642281587212479173534174826212109171487174670173981287294000000210815179409178122207094211453314060180114312205292289176521307702311875205708177650310046180663173835210815000000307550177124180958285168306388289461176000208885210838310930176284211904310340310700211126311138179409307550000000278087173569311253169066180925205848306260309941216227169748173700212830279767214306313537178122177124278087000000308308173696199536311122172309309489174084170287209557311721212672289809181413174203207094180958173569308308000000209895178268206694304977207769285351177409310426292991310925311489312992206986211453285168311253173696209895000000175978287715309160173393208876172580313999174198174894312039214521313720314060306388169066199536178268175978000000312733275158175894173737211213168240311252287660211079308437210466180114289461180925311122206694287715312733000000172494213864174717176588311625205868307932175706211353312642312205176000205848172309304977309160275158172494000000185297313423170001212867178906282906214454172146281587292289208885306260309489207769173393175894213864185297000000208907311330307408178637312541179447311379212479176521210838309941174084285351208876173737174717313423208907000000313962175693279400312723175024276626173534307702310930216227170287177409172580211213176588170001311330313962000000291761311680199293206062279243174826311875176284169748209557310426313999168240311625212867307408175693291761000000180904206094201022310874212109205708211904173700311721292991174198311252205868178906178637279400311680180904000000176280312219173837171487177650310340212830212672310925174894287660307932282906312541312723199293206094176280000000169672171542174670310046310700279767289809311489312039211079175706214454179447175024206062201022312219169672000000, 0, 35, 40, 24302000000000000000000000000000000000000000000000000000000000000000000000000000000000000000000000000000000000000024302000000000000000000000000000000000000000000000000000000000000000000000000000000000000000000000000000000000000024302000000000000000000000000000000000000000000000000000000000000000000000000000000000000000000000000000000000000024302000000000000000000000000000000000000000000000000000000000000000000000000000000000000000000000000000000000000024302000000000000000000000000000000000000000000000000000000000000000000000000000000000000000000000000000000000000024302000000000000000000000000000000000000000000000000000000000000000000000000000000000000000000000000000000000000024302000000000000000000000000000000000000000000000000000000000000000000000000000000000000000000000000000000000000024302000000000000000000000000000000000000000000000000000000000000000000000000000000000000000000000000000000000000024302000000000000000000000000000000000000000000000000000000000000000000000000000000000000000000000000000000000000024302000000000000000000000000000000000000000000000000000000000000000000000000000000000000000000000000000000000000024302000000000000000000000000000000000000000000000000000000000000000000000000000000000000000000000000000000000000024302000000000000000000000000000000000000000000000000000000000000000000000000000000000000000000000000000000000000024302000000000000000000000000000000000000000000000000000000000000000000000000000000000000000000000000000000000000024302000000000000000000000000000000000000000000000000000000000000000000000000000000000000000000000000000000000000024302000000000000000000000000000000000000000000000000000000000000000000000000000000000000000000000000000000000000024302000000000000000000000000000000000000000000000000000000000000000000000000000000000000000000000000000000000000024302000000000000000000000000000000000000000000000000000000000000000000000000000000000000000000000000000000000000024302, 100000000001000001000001000001000001000001000001000001000001000001000001000001000001000001000001000001000001000001100000000001000001000001000001000001000001000001000001000001000001000001000001000001000001000001000001000001000001100000000001000001000001000001000001000001000001000001000001000001000001000001000001000001000001000001000001000001100000000001000001000001000001000001000001000001000001000001000001000001000001000001000001000001000001000001000001100000000001000001000001000001000001000001000001000001000001000001000001000001000001000001000001000001000001000001100000000001000001000001000001000001000001000001000001000001000001000001000001000001000001000001000001000001000001100000000001000001000001000001000001000001000001000001000001000001000001000001000001000001000001000001000001000001100000000001000001000001000001000001000001000001000001000001000001000001000001000001000001000001000001000001000001100000000001000001000001000001000001000001000001000001000001000001000001000001000001000001000001000001000001000001100000000001000001000001000001000001000001000001000001000001000001000001000001000001000001000001000001000001000001100000000001000001000001000001000001000001000001000001000001000001000001000001000001000001000001000001000001000001100000000001000001000001000001000001000001000001000001000001000001000001000001000001000001000001000001000001000001100000000001000001000001000001000001000001000001000001000001000001000001000001000001000001000001000001000001000001100000000001000001000001000001000001000001000001000001000001000001000001000001000001000001000001000001000001000001100000000001000001000001000001000001000001000001000001000001000001000001000001000001000001000001000001000001000001100000000001000001000001000001000001000001000001000001000001000001000001000001000001000001000001000001000001000001100000000001000001000001000001000001000001000001000001000001000001000001000001000001000001000001000001000001000001100000, 516090500000500000500000500000500000500000500000500000500000500000500000500000500000500000500000500000500000500000516090500000500000500000500000500000500000500000500000500000500000500000500000500000500000500000500000500000500000516090500000500000500000500000500000500000500000500000500000500000500000500000500000500000500000500000500000500000516090500000500000500000500000500000500000500000500000500000500000500000500000500000500000500000500000500000500000516090500000500000500000500000500000500000500000500000500000500000500000500000500000500000500000500000500000500000516090500000500000500000500000500000500000500000500000500000500000500000500000500000500000500000500000500000500000516090500000500000500000500000500000500000500000500000500000500000500000500000500000500000500000500000500000500000516090500000500000500000500000500000500000500000500000500000500000500000500000500000500000500000500000500000500000516090500000500000500000500000500000500000500000500000500000500000500000500000500000500000500000500000500000500000516090500000500000500000500000500000500000500000500000500000500000500000500000500000500000500000500000500000500000516090500000500000500000500000500000500000500000500000500000500000500000500000500000500000500000500000500000500000516090500000500000500000500000500000500000500000500000500000500000500000500000500000500000500000500000500000500000516090500000500000500000500000500000500000500000500000500000500000500000500000500000500000500000500000500000500000516090500000500000500000500000500000500000500000500000500000500000500000500000500000500000500000500000500000500000516090500000500000500000500000500000500000500000500000500000500000500000500000500000500000500000500000500000500000516090500000500000500000500000500000500000500000500000500000500000500000500000500000500000500000500000500000500000516090500000500000500000500000500000500000500000500000500000500000500000500000500000500000500000500000500000500000516090⟩

def se3Cert19 : Cert := ⟨218892166591214357169257166272311955313407152775217419156638215437310494305971306454310567313823169894309736218892000000311590195091313336185276312944313707311490289539169317193953178711186839222275313722182356179059174148166591311590000000182663271481163549267164195126216120183141212540310416165280192719310884175761265548291957313213214357195091182663000000180217308786313540313297171723194590311825288997176120181276217415312878183445314057179143169257313336271481180217000000292798196463270198215306181635217388312825309217270826312309181082196335167838170130166272185276163549308786292798000000193283271063210116312957215026178644314043259027303949177154200097270250164537311955312944267164313540196463193283000000269505216576181020220037181188309205164206165626178536291611266392164290313407313707195126313297270198271063269505000000217107179112215078181960162338292379168519180285167448199741307041152775311490216120171723215306210116216576217107000000313597309381167604312120213233153710312578218148216556308046217419289539183141194590181635312957181020179112313597000000169549195500173406312032216416313299310772310993177067156638169317212540311825217388215026220037215078309381169549000000310983309557223165165320310084214627213590310692215437193953310416288997312825178644181188181960167604195500310983000000176405307414212102312188312856183334170856310494178711165280176120309217314043309205162338312120173406309557176405000000171120309836202957313892168183220962305971186839192719181276270826259027164206292379213233312032223165307414171120000000167441177053272679198581313332306454222275310884217415312309303949165626168519153710216416165320212102309836167441000000311932171232313834308353310567313722175761312878181082177154178536180285312578313299310084312188202957177053311932000000178622181047204455313823182356265548183445196335200097291611167448218148310772214627312856313892272679171232178622000000270462169655169894179059291957314057167838270250266392199741216556310993213590183334168183198581313834181047270462000000307133309736174148313213179143170130164537164290307041308046177067310692170856220962313332308353204455169655307133000000, 152775169317163549171723167838163549164206162338152775169549156638167604162338164206153710175761167448167838164290, 65622, 65639, 99999014537032724015733031566032864001990001919039083014918037247015442002065002310002283002061001899031292002104014537099999002009021612001922025116001941001904002014003425031540022001027651024535013690001904026225027513029502032724002009099999026107005149034074005654021600015260025924016232002069033302022427002045028840005854003236001928015733021612026107099999027056002154001913001924030515021782001997003468028693026642014919001945025808001888027480031566001922005149027056099999003173021150005295015477026503014926001947002131005223001973026718021193032179031191032864025116034074002154003173099999022231005196016915001941015552027678001888006718002427028275019958005289033632001990001941005654001913021150022231099999005375015139026742014246026677002132033779033149027721003263005749033742001919001904021600001924005295005196005375099999015000027492015538026377034619003204031884027029032349020073002250039083002014015260030515015477016915015139015000099999001910002123032281001982016040038635001959014728015144002194014918003425025924021782026503001941026742027492001910099999031440021473029810001987015181001924002050002039028310037247031540016232001997014926015552014246015538002123031440099999002040002113013473033284002086015660015942002054015442022001002069003468001947027678026677026377032281021473002040099999028578002229016354001979001946025850030882002065027651033302028693002131001888002132034619001982029810002113028578099999030770002099019053001896032029014014002310024535022427026642005223006718033779003204016040001987013473002229030770099999032352028315005016020449001923002283013690002045014919001973002427033149031884038635015181033284016354002099032352099999001992030723001898002178002061001904028840001945026718028275027721027029001959001924002086001979019053028315001992099999027687026732018591001899026225005854025808021193019958003263032349014728002050015660001946001896005016030723027687099999005265031395031292027513003236001888032179005289005749020073015144002039015942025850032029020449001898026732005265099999002245002104029502001928027480031191033632033742002250002194028310002054030882014014001923002178018591031395002245099999, 100000014563032761015760031603032901001998001926039122014944037286015469002072002318002290002068001906031329002112014563100000002016021644001930025150001949001912002021003435031577022033027687024568013714001911026259027548029539032761002016100000026141005163034111005669021632015286025958016260002076033340022459002052028876005868003246001935015760021644026141100000027091002162001920001931030552021814002004003479028729026677014945001952025842001895027515031603001930005163027091100000003183021181005309015504026538014952001954002139005237001980026753021224032216031228032901025150034111002162003183100000022264005210016943001948015579027713001895006734002436028310019989005303033670001998001949005669001920021181022264100000005389015166026777014271026712002140033817033186027756003273005763033780001926001912021632001931005309005210005389100000015026027527015565026412034657003214031921027064032386020103002258039122002021015286030552015504016943015166015026100000001917002130032318001989016068038674001967014754015171002202014944003435025958021814026538001948026777027527001917100000031477021505029846001994015208001931002058002046028345037286031577016260002004014952015579014271015565002130031477100000002047002121013498033322002093015687015970002062015469022033002076003479001954027713026712026412032318021505002047100000028613002237016382001986001953025884030919002072027687033340028729002139001895002140034657001989029846002121028613100000030807002106019083001903032067014039002318024568022459026677005237006734033817003214016068001994013498002237030807100000032389028351005029020480001930002290013714002052014945001980002436033186031921038674015208033322016382002106032389100000001999030759001905002185002068001911028876001952026753028310027756027064001967001931002093001986019083028351001999100000027722026766018620001906026259005868025842021224019989003273032386014754002058015687001953001903005029030759027722100000005279031432031329027548003246001895032216005303005763020103015171002046015970025884032067020480001905026766005279100000002252002112029539001935027515031228033670033780002258002202028345002062030919014039001930002185018620031432002252100000, 521146499716495263499541495391495229501377501347492874499522493442499633501742501323503193502785501454495487501731499716517868502296497980502427496949502396502440501976501821494749498070496400496849499529502226496636496363496093495263502296518376496766501923494440500842498140499478496746499252502394495380497908501406496285500669502752502270499541497980496766517826496450502274502451502449495058497978501968501793496227496514499590502291496694502441496476495391502427501923496450517845502719498006500719499379496615499522502342502220500884501342496463498032494721495788495229496949494440502274502719518344498049500780499324502439499387496507502355500675501248496341498340501889495308501377502396500842502451498006498049518406501924499621496492499375496814502203494529495086496433502717500611495294501347502440498140502449500719500780501924518217499399496627499225496641495084502767495277496469494671498305502197492874501976499478495058499379499324499621499399519141502020504107494680502044499378493094500456499364499422502069499522501821496746497978496615502439496492496627502020518027494876498138496226502360499448502262502356502346496399493442494749499252501968499522499387499375499225504107494876518180501917502191499512494235500566499103499304502160499633498070502394501793502342496507496814496641494680498138501917518145496355502236499587502239502354496753496026501742496400495380496227502220502355502203495084502044496226502191496355520193495851501818498983502368495564498893501323496849497908496514500884500675494529502767499378502360499512502236495851517963495296496319501871498148502325503193499529501406499590501342501248495086495277493094499448494235499587501818495296520549502836495633501330501840502785502226496285502291496463496341496433496469500456502262500566502239498983496319502836518078496302496462499020501454496636500669496694498032498340502717494671499364502356499103502354502368501871495633496302517731500822495699495487496363502752502441494721501889500611498305499422502346499304496753495564498148501330496462500822517802502283501731496093502270496476495788495308495294502197502069496399502160496026498893502325501840499020495699502283520185⟩

def e3Cert19 : ℕ × ℕ × Cert := ⟨57164000000041233000000000000157040157079000000052531000000045566156946156410156489156959157076000000156886057164000000157015000000157073000000157063157075157009151050000000000000000000000000066569157075000000000000000000000000157015000000000000139045000000135222000000048068000000032742156948000000000000156957000000133709152176157072041233000000000000000000000000156787157076157074000000000000157023150774000000000000052542157058000000157075000000000000157073139045000000000000152514000000137958045045000000052441157049156844138491157041000000000000000000000000000000000000000000156787152514000000000000138691015314157060043989000000157065126998156034000000000000137982000000157040157063135222157076000000000000000000137340049700000000060518000000156838000000000000000000152011134503000000157079157075000000157074137958138691137340000000051526000000044169000000000000152355000000000000000000000000156574000000157009048068000000045045015314049700051526000000157067156858000000157040036249000000157062054906049629156708052531151050000000000000000000157060000000000000157067000000000000000000000000157034049134157073156976156970000000000000000000032742157023052441043989060518044169156858000000000000156968156852068813000000156936042387037932156956045566000000156948150774157049000000000000000000000000000000156968000000000000156635030363157036157061000000000000156946000000000000000000156844157065156838000000157040000000156852000000000000000000156883000000157077000000063103156410000000000000000000138491126998000000152355036249157034068813156635000000000000000000000000140027000000157074156489066569156957052542157041156034000000000000000000049134000000030363156883000000000000157029000000157072156737156959157075000000157058000000000000000000000000157062157073156936157036000000000000157029000000000000000000000000157076000000133709000000000000000000152011000000054906156976042387157061157077140027000000000000000000138168000000000000000000152176157075000000137982134503000000049629156970037932000000000000000000157072000000138168000000156576156886000000157072000000000000000000000000156574156708000000156956000000063103157074156737000000000000156576000000, 0, 218892166591214357169257166272311955313407152775217419156638215437310494305971306454310567313823169894309736218892000000311590195091313336185276312944313707311490289539169317193953178711186839222275313722182356179059174148166591311590000000182663271481163549267164195126216120183141212540310416165280192719310884175761265548291957313213214357195091182663000000180217308786313540313297171723194590311825288997176120181276217415312878183445314057179143169257313336271481180217000000292798196463270198215306181635217388312825309217270826312309181082196335167838170130166272185276163549308786292798000000193283271063210116312957215026178644314043259027303949177154200097270250164537311955312944267164313540196463193283000000269505216576181020220037181188309205164206165626178536291611266392164290313407313707195126313297270198271063269505000000217107179112215078181960162338292379168519180285167448199741307041152775311490216120171723215306210116216576217107000000313597309381167604312120213233153710312578218148216556308046217419289539183141194590181635312957181020179112313597000000169549195500173406312032216416313299310772310993177067156638169317212540311825217388215026220037215078309381169549000000310983309557223165165320310084214627213590310692215437193953310416288997312825178644181188181960167604195500310983000000176405307414212102312188312856183334170856310494178711165280176120309217314043309205162338312120173406309557176405000000171120309836202957313892168183220962305971186839192719181276270826259027164206292379213233312032223165307414171120000000167441177053272679198581313332306454222275310884217415312309303949165626168519153710216416165320212102309836167441000000311932171232313834308353310567313722175761312878181082177154178536180285312578313299310084312188202957177053311932000000178622181047204455313823182356265548183445196335200097291611167448218148310772214627312856313892272679171232178622000000270462169655169894179059291957314057167838270250266392199741216556310993213590183334168183198581313834181047270462000000307133309736174148313213179143170130164537164290307041308046177067310692170856220962313332308353204455169655307133000000, 0, 35, 40, 24302000000000000000000000000000000000000000000000000000000000000000000000000000000000000000000000000000000000000000000024302000000000000000000000000000000000000000000000000000000000000000000000000000000000000000000000000000000000000000000024302000000000000000000000000000000000000000000000000000000000000000000000000000000000000000000000000000000000000000000024302000000000000000000000000000000000000000000000000000000000000000000000000000000000000000000000000000000000000000000024302000000000000000000000000000000000000000000000000000000000000000000000000000000000000000000000000000000000000000000024302000000000000000000000000000000000000000000000000000000000000000000000000000000000000000000000000000000000000000000024302000000000000000000000000000000000000000000000000000000000000000000000000000000000000000000000000000000000000000000024302000000000000000000000000000000000000000000000000000000000000000000000000000000000000000000000000000000000000000000024302000000000000000000000000000000000000000000000000000000000000000000000000000000000000000000000000000000000000000000024302000000000000000000000000000000000000000000000000000000000000000000000000000000000000000000000000000000000000000000024302000000000000000000000000000000000000000000000000000000000000000000000000000000000000000000000000000000000000000000024302000000000000000000000000000000000000000000000000000000000000000000000000000000000000000000000000000000000000000000024302000000000000000000000000000000000000000000000000000000000000000000000000000000000000000000000000000000000000000000024302000000000000000000000000000000000000000000000000000000000000000000000000000000000000000000000000000000000000000000024302000000000000000000000000000000000000000000000000000000000000000000000000000000000000000000000000000000000000000000024302000000000000000000000000000000000000000000000000000000000000000000000000000000000000000000000000000000000000000000024302000000000000000000000000000000000000000000000000000000000000000000000000000000000000000000000000000000000000000000024302000000000000000000000000000000000000000000000000000000000000000000000000000000000000000000000000000000000000000000024302, 100000000001000001000001000001000001000001000001000001000001000001000001000001000001000001000001000001000001000001000001100000000001000001000001000001000001000001000001000001000001000001000001000001000001000001000001000001000001000001000001100000000001000001000001000001000001000001000001000001000001000001000001000001000001000001000001000001000001000001000001100000000001000001000001000001000001000001000001000001000001000001000001000001000001000001000001000001000001000001000001100000000001000001000001000001000001000001000001000001000001000001000001000001000001000001000001000001000001000001000001100000000001000001000001000001000001000001000001000001000001000001000001000001000001000001000001000001000001000001000001100000000001000001000001000001000001000001000001000001000001000001000001000001000001000001000001000001000001000001000001100000000001000001000001000001000001000001000001000001000001000001000001000001000001000001000001000001000001000001000001100000000001000001000001000001000001000001000001000001000001000001000001000001000001000001000001000001000001000001000001100000000001000001000001000001000001000001000001000001000001000001000001000001000001000001000001000001000001000001000001100000000001000001000001000001000001000001000001000001000001000001000001000001000001000001000001000001000001000001000001100000000001000001000001000001000001000001000001000001000001000001000001000001000001000001000001000001000001000001000001100000000001000001000001000001000001000001000001000001000001000001000001000001000001000001000001000001000001000001000001100000000001000001000001000001000001000001000001000001000001000001000001000001000001000001000001000001000001000001000001100000000001000001000001000001000001000001000001000001000001000001000001000001000001000001000001000001000001000001000001100000000001000001000001000001000001000001000001000001000001000001000001000001000001000001000001000001000001000001000001100000000001000001000001000001000001000001000001000001000001000001000001000001000001000001000001000001000001000001000001100000000001000001000001000001000001000001000001000001000001000001000001000001000001000001000001000001000001000001000001100000, 516090500000500000500000500000500000500000500000500000500000500000500000500000500000500000500000500000500000500000500000516090500000500000500000500000500000500000500000500000500000500000500000500000500000500000500000500000500000500000500000516090500000500000500000500000500000500000500000500000500000500000500000500000500000500000500000500000500000500000500000516090500000500000500000500000500000500000500000500000500000500000500000500000500000500000500000500000500000500000500000516090500000500000500000500000500000500000500000500000500000500000500000500000500000500000500000500000500000500000500000516090500000500000500000500000500000500000500000500000500000500000500000500000500000500000500000500000500000500000500000516090500000500000500000500000500000500000500000500000500000500000500000500000500000500000500000500000500000500000500000516090500000500000500000500000500000500000500000500000500000500000500000500000500000500000500000500000500000500000500000516090500000500000500000500000500000500000500000500000500000500000500000500000500000500000500000500000500000500000500000516090500000500000500000500000500000500000500000500000500000500000500000500000500000500000500000500000500000500000500000516090500000500000500000500000500000500000500000500000500000500000500000500000500000500000500000500000500000500000500000516090500000500000500000500000500000500000500000500000500000500000500000500000500000500000500000500000500000500000500000516090500000500000500000500000500000500000500000500000500000500000500000500000500000500000500000500000500000500000500000516090500000500000500000500000500000500000500000500000500000500000500000500000500000500000500000500000500000500000500000516090500000500000500000500000500000500000500000500000500000500000500000500000500000500000500000500000500000500000500000516090500000500000500000500000500000500000500000500000500000500000500000500000500000500000500000500000500000500000500000516090500000500000500000500000500000500000500000500000500000500000500000500000500000500000500000500000500000500000500000516090500000500000500000500000500000500000500000500000500000500000500000500000500000500000500000500000500000500000500000516090⟩

def se3Cert20 : Cert := ⟨164766313853309579190841307467167532310502172084250015171106310257248959194528170013243079191873175439310898309259164766000000310034243311194626167478165260243136251699313908312590306753310291311863171058173278192311309302169601186822313853310034000000312549307986244279248880161831168071165963242167172430308523191368161524169024188766311415312391189868309579243311312549000000190408167678163969248593244470168795306472165191160417310480311286312146188017168240311912191895190841194626307986190408000000311029313086189385193011187081310626195671188528312732194303194217309858191622191478312364307467167478244279167678311029000000242278311036312621167111256004311627304827194351310524169484184046166512172044194175167532165260248880163969313086242278000000310993310117310545243508163826166716191698168720313702190710310075313492189030310502243136161831248593189385311036310993000000245934165507166970310635171457310038165101311526192880312934169935187867172084251699168071244470193011312621310117245934000000313507171154168067310120310248307524165773195857171487312806189834250015313908165963168795187081167111310545165507313507000000306649312961238429193722167448247045186433167552312400312175171106312590242167306472310626256004243508166970171154306649000000310245167695194811313103310508188280175777169884195788310257306753172430165191195671311627163826310635168067312961310245000000166361188095238372169948310582247929246254189165248959310291308523160417188528304827166716171457310120238429167695166361000000196176313070249585188360307666171696310585194528311863191368310480312732194351191698310038310248193722194811188095196176000000185875190743311422192294191100310590170013171058161524311286194303310524168720165101307524167448313103238372313070185875000000306939309839248003251374188258243079173278169024312146194217169484313702311526165773247045310508169948249585190743306939000000190377312696169404311578191873192311188766188017309858184046190710192880195857186433188280310582188360311422309839190377000000307316313045312496175439309302311415168240191622166512310075312934171487167552175777247929307666192294248003312696307316000000245257192097310898169601312391311912191478172044313492169935312806312400169884246254171696191100251374169404313045245257000000192921309259186822189868191895312364194175189030187867189834312175195788189165310585310590188258311578312496192097192921000000, 164766164766161524160417187081166512163826161831165773165507166970163826160417185875161524165773184046166512169404186822, 67455, 67472, 99999035553002347002598024974002730034330002542032367009246032783002556009434023659033252010533024601030961002518002617035553099999002570010488023624034353035333010522008954002344002419002776002554002461032804031862024444002615033430026461002347002570099999002421002697010301009448036875034094035021010712032220002663024783037015033679025735002487002430025329002598010488002421099999025132034266035909009499010264033779002794035363037520002543002495002444026013034020002458024593024974023624002697025132099999002510002390025506024194026363002534023260025823002411023738023768002581024692024744002432002730034353010301034266002510099999010690002510002417034514008238002475002903023721002540033480027519034778032384023783034330035333009448035909002390010690099999002512002565002539010449035974034688024664033811002355025022002567002367025637002542010522036875009499025506002510002512099999009987035223034576002534032633002570035404002481024241002399033286026069032367008954034094010264024194002417002565009987099999002366032763034096002565002557002726035105023196032621002406025342009246002344035021033779026363034514002539035223002366099999002783002397011470023942034367009781026607034321002430002443032783002419010712002794002534008238010449034576032763002783099999002557034258023560002389002541025915030821033308023220002556002776032220035363023260002475035974002534034096002397002557099999034845025984011482033280002537009619009928025588009434002554002663037520025823002903034688032633002565011470034258034845099999023085002391009322025885002717032532002537023659002461024783002543002411023721024664002570002557023942023560025984023085099999026819025010002487024450024880002536033252032804037015002495023738002540033811035404002726034367002389011482002391026819099999002764002582009606009009025923010533031862033679002444023768033480002355002481035105009781002541033280009322025010002764099999025143002413033515002478024601024444025735026013002581027519025022024241023196026607025915002537025885002487002582025143099999002740002393002424030961002615002487034020024692034778002567002399032621034321030821009619002717024450009606002413002740099999010115024521002518033430002430002458024744032384002367033286002406002430033308009928032532024880009009033515002393010115099999024226002617026461025329024593002432023783025637026069025342002443023220025588002537002536025923002478002424024521024226099999, 100000035590002355002606025007002739034367002550032403009266032820002565009453023691033289010554024634030997002526002626035590100000002578010508023657034390035370010542008972002352002427002785002563002469032840031898024477002623033466026494002355002578100000002429002705010321009467036913034131035058010733032256002672024816037052033716025768002495002438025362002606010508002429100000025165034303035947009519010285033816002803035401037558002551002503002453026047034057002466024626025007023657002705025165100000002518002398025540024227026397002542023292025857002419023770023800002589024725024777002440002739034390010321034303002518100000010711002518002425034552008256002483002912023753002549033517027553034815032420023815034367035370009467035947002398010711100000002521002573002547010470036011034725024697033848002363025055002576002375025671002550010542036913009519025540002518002521100000010007035260034614002542032670002578035441002489024274002407033322026103032403008972034131010285024227002425002573010007100000002374032799034133002573002565002735035142023228032657002414025375009266002352035058033816026397034552002547035260002374100000002791002405011492023975034404009801026641034358002438002451032820002427010733002803002542008256010470034614032799002791100000002565034295023592002397002550025949030857033344023252002565002785032256035401023292002483036011002542034133002405002565100000034882026018011504033317002545009639009948025621009453002563002672037558025857002912034725032670002573011492034295034882100000023117002399009342025919002726032568002545023691002469024816002551002419023753024697002578002565023975023592026018023117100000026853025043002495024483024913002545033289032840037052002503023770002549033848035441002735034404002397011504002399026853100000002773002590009626009028025957010554031898033716002453023800033517002363002489035142009801002550033317009342025043002773100000025176002421033552002486024634024477025768026047002589027553025055024274023228026641025949002545025919002495002590025176100000002748002401002432030997002623002495034057024725034815002576002407032657034358030857009639002726024483009626002421002748100000010135024554002526033466002438002466024777032420002375033322002414002438033344009948032568024913009028033552002401010135100000024259002626026494025362024626002440023815025671026103025375002451023252025621002545002545025957002486002432024554024259100000, 521599494580502689502584496799502567494943502555495110500192494886502587500379497194495087500085497068495482502651503281494580522037502531500319497052494716494643499905500403502627502727502510502590503401495324495447497182502576494927496713502689502531522524502593503323500071500385494534494850494956500220495305502389497143494491494989496760502544502717497083502584500319502593522671497036494906494733500380499987495012502575494856494325503380502490502547497044495040502591497002496799497052503323497036518382503373503422496888497046496659503357497321496788502410497209497091502361497093497005502370502567494716500071494906503373522086500286502582502668494890500387502590502518497160502580494966496620494772495286497149494943494643500385494733503422500286522608502594502604502524500022494612495014497046494929502612497004502524502573497056502555499905494534500380496888502582502594522468500314494820494755502521495197503366494894502661497325502650494978496732495110500403494850499987497046502668502604500314521850502694495014494901502608503307502558494583497373494914502642496866500192502627494956495012496659494890502524494820502694522342502460502494500169497222495057500302496822494943502579503400494886502727500220502575503357500387500022494755495014502460521561502584494831497070502691502629496774495470495039497279502587502510495305494856497321502590494612502521494901502494502584522111495026496715500153495039503352500408500159496940500379502590502389494325496788502518495014495197502608500169494831495026522184497344502500500255496909502555495178503381497194503401497143503380502410497160497046503366503307497222497070496715497344518329496552496992502356496852496789502378495087495324494491502490497209502580494929494894502558495057502691500153502500496552522249502415503327500173500439497008500085495447494989502547497091494966502612502661494583500302502629495039500255496992502415521788496935502783494852503319497068497182496760497044502361496620497004497325497373496822496774503352496909502356503327496935518691503249503312502398495482502576502544495040497093494772502524502650494914494943495470500408502555496852500173502783503249521403500004496920502651494927502717502591497005495286502573494978502642502579495039500159495178496789500439494852503312500004521576497077503281496713497083497002502370497149497056496732496866503400497279496940503381502378497008503319502398496920497077518571⟩

def e3Cert20 : ℕ × ℕ × Cert := ⟨157075156856000000156637000000156948000000116184000000156914114801000000000000106528000000000000156982156836000000000000156901106890000000000000000000106592118365157075157052156542156938157019000000000000000000156843000000000000157075156901000000157047156702108273114698000000000000000000105148000000156774000000000000000000000000157002157046000000156856106890157047000000000000000000000000114332108560000000156479000000000000156942157002157045000000000000157026000000000000000000156702000000000000156986157058000000000000000000156960000000000000157060000000000000156887000000000000157056156637000000108273000000156986000000105321156969157058000000123580157016156215000000156934000000000000000000000000000000000000000000114698000000157058105321000000156982156923156947107166000000000000000000000000157079000000156916157073000000156948106592000000114332000000156969156982000000110664000000000000156969000000156900000000157006000000157061000000000000000000118365000000108560000000157058156923110664000000157071000000000000156918156929156648000000000000000000157073000000116184157075000000000000000000000000156947000000157071000000156511157075099253000000000000112212000000000000157044157056000000157052105148156479156960123580107166000000000000156511000000156917000000000000157067156943000000000000000000000000156914156542000000000000000000157016000000156969000000157075156917000000000000000000099157000000156950113423111126000000114801156938156774000000000000156215000000000000156918099253000000000000000000000000157073115642000000156655000000156959000000157019000000156942157060000000000000156900156929000000000000000000000000000000000000000000157001000000000000156956000000000000000000157002000000156934000000000000156648000000157067099157157073000000000000156557156894113524117936000000106528000000000000157045000000000000157079157006000000112212156943000000115642000000156557000000000000157061000000157004000000000000000000000000156887000000000000000000000000000000000000156950000000157001156894000000000000156611157064157060000000156843157002000000000000000000156916157061000000000000000000113423156655000000113524157061156611000000109702000000156982000000157046157026000000000000157073000000157073157044000000111126000000000000117936000000157064109702000000000000156836000000000000000000157056000000000000000000000000157056000000000000156959156956000000157004157060000000000000000000, 0, 164766313853309579190841307467167532310502172084250015171106310257248959194528170013243079191873175439310898309259164766000000310034243311194626167478165260243136251699313908312590306753310291311863171058173278192311309302169601186822313853310034000000312549307986244279248880161831168071165963242167172430308523191368161524169024188766311415312391189868309579243311312549000000190408167678163969248593244470168795306472165191160417310480311286312146188017168240311912191895190841194626307986190408000000311029313086189385193011187081310626195671188528312732194303194217309858191622191478312364307467167478244279167678311029000000242278311036312621167111256004311627304827194351310524169484184046166512172044194175167532165260248880163969313086242278000000310993310117310545243508163826166716191698168720313702190710310075313492189030310502243136161831248593189385311036310993000000245934165507166970310635171457310038165101311526192880312934169935187867172084251699168071244470193011312621310117245934000000313507171154168067310120310248307524165773195857171487312806189834250015313908165963168795187081167111310545165507313507000000306649312961238429193722167448247045186433167552312400312175171106312590242167306472310626256004243508166970171154306649000000310245167695194811313103310508188280175777169884195788310257306753172430165191195671311627163826310635168067312961310245000000166361188095238372169948310582247929246254189165248959310291308523160417188528304827166716171457310120238429167695166361000000196176313070249585188360307666171696310585194528311863191368310480312732194351191698310038310248193722194811188095196176000000185875190743311422192294191100310590170013171058161524311286194303310524168720165101307524167448313103238372313070185875000000306939309839248003251374188258243079173278169024312146194217169484313702311526165773247045310508169948249585190743306939000000190377312696169404311578191873192311188766188017309858184046190710192880195857186433188280310582188360311422309839190377000000307316313045312496175439309302311415168240191622166512310075312934171487167552175777247929307666192294248003312696307316000000245257192097310898169601312391311912191478172044313492169935312806312400169884246254171696191100251374169404313045245257000000192921309259186822189868191895312364194175189030187867189834312175195788189165310585310590188258311578312496192097192921000000, 0, 35, 40, 24302000000000000000000000000000000000000000000000000000000000000000000000000000000000000000000000000000000000000000000000000024302000000000000000000000000000000000000000000000000000000000000000000000000000000000000000000000000000000000000000000000000024302000000000000000000000000000000000000000000000000000000000000000000000000000000000000000000000000000000000000000000000000024302000000000000000000000000000000000000000000000000000000000000000000000000000000000000000000000000000000000000000000000000024302000000000000000000000000000000000000000000000000000000000000000000000000000000000000000000000000000000000000000000000000024302000000000000000000000000000000000000000000000000000000000000000000000000000000000000000000000000000000000000000000000000024302000000000000000000000000000000000000000000000000000000000000000000000000000000000000000000000000000000000000000000000000024302000000000000000000000000000000000000000000000000000000000000000000000000000000000000000000000000000000000000000000000000024302000000000000000000000000000000000000000000000000000000000000000000000000000000000000000000000000000000000000000000000000024302000000000000000000000000000000000000000000000000000000000000000000000000000000000000000000000000000000000000000000000000024302000000000000000000000000000000000000000000000000000000000000000000000000000000000000000000000000000000000000000000000000024302000000000000000000000000000000000000000000000000000000000000000000000000000000000000000000000000000000000000000000000000024302000000000000000000000000000000000000000000000000000000000000000000000000000000000000000000000000000000000000000000000000024302000000000000000000000000000000000000000000000000000000000000000000000000000000000000000000000000000000000000000000000000024302000000000000000000000000000000000000000000000000000000000000000000000000000000000000000000000000000000000000000000000000024302000000000000000000000000000000000000000000000000000000000000000000000000000000000000000000000000000000000000000000000000024302000000000000000000000000000000000000000000000000000000000000000000000000000000000000000000000000000000000000000000000000024302000000000000000000000000000000000000000000000000000000000000000000000000000000000000000000000000000000000000000000000000024302000000000000000000000000000000000000000000000000000000000000000000000000000000000000000000000000000000000000000000000000024302, 100000000001000001000001000001000001000001000001000001000001000001000001000001000001000001000001000001000001000001000001000001100000000001000001000001000001000001000001000001000001000001000001000001000001000001000001000001000001000001000001000001000001100000000001000001000001000001000001000001000001000001000001000001000001000001000001000001000001000001000001000001000001000001100000000001000001000001000001000001000001000001000001000001000001000001000001000001000001000001000001000001000001000001000001100000000001000001000001000001000001000001000001000001000001000001000001000001000001000001000001000001000001000001000001000001100000000001000001000001000001000001000001000001000001000001000001000001000001000001000001000001000001000001000001000001000001100000000001000001000001000001000001000001000001000001000001000001000001000001000001000001000001000001000001000001000001000001100000000001000001000001000001000001000001000001000001000001000001000001000001000001000001000001000001000001000001000001000001100000000001000001000001000001000001000001000001000001000001000001000001000001000001000001000001000001000001000001000001000001100000000001000001000001000001000001000001000001000001000001000001000001000001000001000001000001000001000001000001000001000001100000000001000001000001000001000001000001000001000001000001000001000001000001000001000001000001000001000001000001000001000001100000000001000001000001000001000001000001000001000001000001000001000001000001000001000001000001000001000001000001000001000001100000000001000001000001000001000001000001000001000001000001000001000001000001000001000001000001000001000001000001000001000001100000000001000001000001000001000001000001000001000001000001000001000001000001000001000001000001000001000001000001000001000001100000000001000001000001000001000001000001000001000001000001000001000001000001000001000001000001000001000001000001000001000001100000000001000001000001000001000001000001000001000001000001000001000001000001000001000001000001000001000001000001000001000001100000000001000001000001000001000001000001000001000001000001000001000001000001000001000001000001000001000001000001000001000001100000000001000001000001000001000001000001000001000001000001000001000001000001000001000001000001000001000001000001000001000001100000000001000001000001000001000001000001000001000001000001000001000001000001000001000001000001000001000001000001000001000001100000, 516090500000500000500000500000500000500000500000500000500000500000500000500000500000500000500000500000500000500000500000500000516090500000500000500000500000500000500000500000500000500000500000500000500000500000500000500000500000500000500000500000500000516090500000500000500000500000500000500000500000500000500000500000500000500000500000500000500000500000500000500000500000500000516090500000500000500000500000500000500000500000500000500000500000500000500000500000500000500000500000500000500000500000500000516090500000500000500000500000500000500000500000500000500000500000500000500000500000500000500000500000500000500000500000500000516090500000500000500000500000500000500000500000500000500000500000500000500000500000500000500000500000500000500000500000500000516090500000500000500000500000500000500000500000500000500000500000500000500000500000500000500000500000500000500000500000500000516090500000500000500000500000500000500000500000500000500000500000500000500000500000500000500000500000500000500000500000500000516090500000500000500000500000500000500000500000500000500000500000500000500000500000500000500000500000500000500000500000500000516090500000500000500000500000500000500000500000500000500000500000500000500000500000500000500000500000500000500000500000500000516090500000500000500000500000500000500000500000500000500000500000500000500000500000500000500000500000500000500000500000500000516090500000500000500000500000500000500000500000500000500000500000500000500000500000500000500000500000500000500000500000500000516090500000500000500000500000500000500000500000500000500000500000500000500000500000500000500000500000500000500000500000500000516090500000500000500000500000500000500000500000500000500000500000500000500000500000500000500000500000500000500000500000500000516090500000500000500000500000500000500000500000500000500000500000500000500000500000500000500000500000500000500000500000500000516090500000500000500000500000500000500000500000500000500000500000500000500000500000500000500000500000500000500000500000500000516090500000500000500000500000500000500000500000500000500000500000500000500000500000500000500000500000500000500000500000500000516090500000500000500000500000500000500000500000500000500000500000500000500000500000500000500000500000500000500000500000500000516090500000500000500000500000500000500000500000500000500000500000500000500000500000500000500000500000500000500000500000500000516090⟩

def se3Cert21 : Cert := ⟨178815180966173708312201209506308043178986312005313412208838170243181065311271312456176236307982314031177103214326211754178815000000166764281371270748313372188220279559311775177118176831282796188922280921165725166794276529184528272483309808180413180966166764000000171850292814311477166976295255176116220616310993277229166013278243278434278822167073290967290370177582181244173708281371171850000000168355309972283990170955171363235859312175282026282527281398278731278671285703168792168052172225171366312201270748292814168355000000180236282447179802181783171434312796289949183283170235294113166586266444177254263148310147177217209506313372311477309972180236000000175545313602207114312642310211172765177087176621179393172500312179307622185042216460207091308043188220166976283990282447175545000000265212180354174572310700165826275835285018167478285374185464271852183344312754183864178986279559295255170955179802313602265212000000313131171673182768166749268370168617293703291410178026264962178917313963179252312005311775176116171363181783207114180354313131000000313798205289174996313758311827309780173433180108176232309877204767211942313412177118220616235859171434312642174572171673313798000000314143230069175932230842225258225929173478173508174711313733311208208838176831310993312175312796310211310700182768205289314143000000172487311971173015176147174196175085180603313930205159211141170243282796277229282026289949172765165826166749174996230069172487000000284955279031279721172370166674286428169777311646312054181065188922166013282527183283177087275835268370313758175932311971284955000000167732285375168399184880270449277785180083308041311271280921278243281398170235176621285018168617311827230842173015279031167732000000172290281172166151288452288051174777169113312456165725278434278731294113179393167478293703309780225258176147279721285375172290000000276479286864167156166285172353178650176236166794278822278671166586172500285374291410173433225929174196172370168399281172276479000000286874163840291651308720310978307982276529167073285703266444312179185464178026180108173478175085166674184880166151286864286874000000281498269367179754307070314031184528290967168792177254307622271852264962176232173508180603286428270449288452167156163840281498000000181658177839309521177103272483290370168052263148185042183344178917309877174711313930169777277785288051166285291651269367181658000000179209310054214326309808177582172225310147216460312754313963204767313733205159311646180083174777172353308720179754177839179209000000312010211754180413181244171366177217207091183864179252211942311208211141312054308041169113178650310978307070309521310054312010000000, 170243165725166013168052166586172500165826166749171363171434172487165826166013166151165725163840166151163840166285172225169113, 67080, 67097, 99999029181028324031276002342018439002586029112002353002274018639032745028285002395002327030228002590002241029874017044017779029181099999034258004739005940002277025548004928002366029868029985004594025289004785034717034245005258026939005728002480028543028324034258099999032059003679002383034165003481030278015340002411005180034589005069005049005007034122003835003887029679028214031276004739032059099999033561002470004476032440032266011733002343004672004621004736005016005023004311033371033693031900032265002342005940003679033561099999028613004629028786028002032236002308003924027418032749003573034336006493029812006945002460029827018439002277002383002470028613099999030513002264019161002317002456031672029880030071028949031784002343002612026742016451019168002586025548034165004476004629030513099999006659028566030916002428034672005337004376033944004342026582005804027394002311027194029112004928003481032440028786002264006659099999002290032134027618034264006240033447003606003797029499006693029140002244029005002353002366030278032266028002019161028566002290099999002253019724030740002255002363002482031391028664030230002476019888017724002274029868015340011733032236002317030916032134002253099999002234013018030353012841014164014000031372031360030858002257002398018639029985002411002343002308002456002428027618019724002234099999031789002355031567030265031072030703028467002246019765017957032745004594005180004672003924031672034672034264030740013018031789099999004382004984004911031839034297004243032946002373002350028285025289034589004621027418029880005337006240002255030353002355004382099999033833004342033542026804005977005119028674002586002395004785005069004736032749030071004376033447002363012841031567004984033833099999031873004759034528004057004093030830033232002327034717005049005016003573028949033944003606002482014164030265004911004342031873099999005264004202034085034469031846029247030228034245005007005023034336031784004342003797031391014000031072031839033542004759005264099999004201035557003777002545002411002590005258034122004311006493002343026582029499028664031372030703034297026804034528004202004201099999004726006113028805002647002241026939003835033371029812002612005804006693030230031360028467004243005977004057034085035557004726099999028051029575002497029874005728003887033693006945026742027394029140002476030858002246032946005119004093034469003777006113028051099999029023002465017044002480029679031900002460016451002311002244019888002257019765002373028674030830031846002545028805029575029023099999002352017779028543028214032265029827019168027194029005017724002398017957002350002586033232029247002411002647002497002465002352099999, 100000029216028359031312002350018468002595029147002361002282018668032782028320002403002335030264002598002248029909017072017807029216100000034295004751005954002284025581004941002374029903030020004607025322004798034754034282005272026973005742002488028578028359034295100000032096003690002391034202003492030313015366002419005194034626005082005062005020034159003846003898029714028249031312004751032096100000033598002478004488032477032303011756002351004684004634004749005029005036004323033408033730031937032301002350005954003690033598100000028648004642028821028037032272002316003935027452032785003583034373006508029848006961002468029863018468002284002391002478028648100000030549002272019190002325002464031708029916030106028984031820002351002621026776016478019197002595025581034202004488004642030549100000006675028601030952002436034709005350004388033981004354026616005819027429002319027228029147004941003492032477028821002272006675100000002298032171027652034302006255033484003617003808029534006709029175002252029041002361002374030313032303028037019190028601002298100000002261019754030776002263002371002490031427028699030266002484019918017753002282029903015366011756032272002325030952032171002261100000002242013042030389012864014189014025031409031396030894002264002406018668030020002419002351002316002464002436027652019754002242100000031826002363031603030301031108030739028502002254019795017986032782004607005194004684003935031708034709034302030776013042031826100000004394004997004924031875034335004254032982002381002358028320025322034626004634027452029916005350006255002263030389002363004394100000033870004354033579026838005992005132028709002595002403004798005082004749032785030106004388033484002371012864031603004997033870100000031909004772034565004068004104030866033269002335034754005062005029003583028984033981003617002490014189030301004924004354031909100000005277004214034123034506031882029283030264034282005020005036034373031820004354003808031427014025031108031875033579004772005277100000004213035595003788002553002420002598005272034159004323006508002351026616029534028699031409030739034335026838034565004214004213100000004738006128028840002655002248026973003846033408029848002621005819006709030266031396028502004254005992004068034123035595004738100000028086029610002505029909005742003898033730006961026776027429029175002484030894002254032982005132004104034506003788006128028086100000029058002474017072002488029714031937002468016478002319002252019918002264019795002381028709030866031882002553028840029610029058100000002360017807028578028249032301029863019197027228029041017753002406017986002358002595033269029283002420002655002505002474002360100000, 520019496046496517495650502732498573502673496328502776502564498493495510496226501900502011496095502676502757496096498625498535496046521245494621501718501657502765497815501380502702495379496020501765497923501746494648494801501766497602501754502709496146496517494621522115495535501861502013494701501838496068500382502030502076494628502125502070502033494893501875501852496249496505495650501718495535522446495191501846501747495415495583501040501844502113501749502155502163502185501886495268495142495642495455502732501657501861495191521345496343501445496917496586495143502756501836497380495316501884494967501510496877501527502647496218498573502765502013501846496343519987495870502812498436502544502696495743496004495990496278495769502719502695496678498742498297502673497815494701501747501445495870521244501609496313495189502666494786501859501786494828501815497609501623497424502728496456496328501380501838495415496917502812501609521333502738495257496605494991501641495216501859501852496945501426496890502772496345502776502702496068495583496586498436496313502738520137502582498355495981502768501939501957495850496272496191502677498305498533502564495379500382501040495143502544495189495257502582520858502552500830495385500875500607500619495164495215495459502554502566498493496020502030501844502756502696502666496605498355502552520212495723502729495770496144495980496037496396502826498315498582495510501765502076502113501836495743494786494991495981500830495723522638501789502155502044495789494969501800495295501924501996496226497923494628501749497380496004501859501641502768495385502729501789521113494928501697494988497542501645501283496225502716501900501746502125502155495316495990501786495216501939500875495770502155494928522427495628502057494918501882501746495924495326502011494648502070502163501884496278494828501859501957500607496144502044501697495628522327502111501880494999494760495680496322496095494801502033502185494967495769501815501852495850500619495980495789494988502057502111522612501770494665501839501980502002502676501766494893501886501510502719497609496945496272495164496037494969497542494918501880501770521505501492501611496267502627502757497602501875495268496877502695501623501426496191495215496396501800501645501882494999494665501492521557497172496269502651496096501754501852495142501527496678497424496890502677495459502826495295501283501746494760501839501611497172521164496263502730498625502709496249495642502647498742502728502772498305502554498315501924496225495924495680501980496267496269496263520121502818498535496146496505495455496218498297496456496345498533502566498582501996502716495326496322502002502627502651502730502818519945⟩

def e3Cert21 : ℕ × ℕ × Cert := ⟨157042004807156706000000157032157074000000000000000000156996157051000000156699157079000000041133028314000000000000000000146404138420157074000000145198157023000000000000147308000000146110000000000000143040000000139876156890000000000000000000000000000000152539157008000000153515000000062140156979143554000000144283144419144690000000151724151444000000000000000000146404000000000000000000156905148034000000000000094909157040146824147141146423144627144583149028000000000000000000000000157042138420152539000000000000000000147089000000000000000000157061151244000000000000153072000000134551000000131336156919000000004807157074157008156905000000000000000000157077000000157057156924000000000000000000000000000000157041156652000000049291000000156706000000000000148034147089000000000000133375000000000000156959000000142520148638000000148842000000139354000000157060000000000000145198153515000000000000157077133375000000157070000000000000000000136329000000152908151924000000133133000000157079000000157032157023000000000000000000000000000000157070000000157078000000000000157077157026156889000000000000000000156897000000029440157074000000062140094909000000157057000000000000157078000000157079084141000000085671073825075358000000000000000000157077156993000000000000156979157040157061156924156959000000000000157079000000000000157033000000000000000000000000000000157078000000024278000000147308143554146824151244000000000000000000000000084141000000000000148601144836145309000000000000149432000000157016157035000000000000000000147141000000000000142520136329157077000000157033148601000000000000148842000000000000138164143956000000156707156996146110144283146423000000000000148638000000157026085671000000144836000000000000000000146276000000150503150297000000000000157051000000144419144627153072000000000000152908156889073825000000145309148842000000000000143003149668000000000000000000000000000000000000144690144583000000000000148842151924000000075358000000000000000000146276143003000000149675000000152033156785156979156699143040000000149028134551157041000000000000000000000000000000000000000000000000149668149675000000146488137218000000156576157079000000151724000000000000156652139354133133000000000000000000149432138164150503000000000000146488000000000000000000156864000000139876151444000000131336000000000000000000156897000000157078000000143956150297000000152033137218000000000000000000156911041133156890000000000000156919049291157060157079000000157077000000157016000000000000000000156785000000000000000000000000157033028314000000000000000000000000000000000000000000029440156993024278157035156707000000000000156979156576156864156911157033000000, 0, 178815180966173708312201209506308043178986312005313412208838170243181065311271312456176236307982314031177103214326211754178815000000166764281371270748313372188220279559311775177118176831282796188922280921165725166794276529184528272483309808180413180966166764000000171850292814311477166976295255176116220616310993277229166013278243278434278822167073290967290370177582181244173708281371171850000000168355309972283990170955171363235859312175282026282527281398278731278671285703168792168052172225171366312201270748292814168355000000180236282447179802181783171434312796289949183283170235294113166586266444177254263148310147177217209506313372311477309972180236000000175545313602207114312642310211172765177087176621179393172500312179307622185042216460207091308043188220166976283990282447175545000000265212180354174572310700165826275835285018167478285374185464271852183344312754183864178986279559295255170955179802313602265212000000313131171673182768166749268370168617293703291410178026264962178917313963179252312005311775176116171363181783207114180354313131000000313798205289174996313758311827309780173433180108176232309877204767211942313412177118220616235859171434312642174572171673313798000000314143230069175932230842225258225929173478173508174711313733311208208838176831310993312175312796310211310700182768205289314143000000172487311971173015176147174196175085180603313930205159211141170243282796277229282026289949172765165826166749174996230069172487000000284955279031279721172370166674286428169777311646312054181065188922166013282527183283177087275835268370313758175932311971284955000000167732285375168399184880270449277785180083308041311271280921278243281398170235176621285018168617311827230842173015279031167732000000172290281172166151288452288051174777169113312456165725278434278731294113179393167478293703309780225258176147279721285375172290000000276479286864167156166285172353178650176236166794278822278671166586172500285374291410173433225929174196172370168399281172276479000000286874163840291651308720310978307982276529167073285703266444312179185464178026180108173478175085166674184880166151286864286874000000281498269367179754307070314031184528290967168792177254307622271852264962176232173508180603286428270449288452167156163840281498000000181658177839309521177103272483290370168052263148185042183344178917309877174711313930169777277785288051166285291651269367181658000000179209310054214326309808177582172225310147216460312754313963204767313733205159311646180083174777172353308720179754177839179209000000312010211754180413181244171366177217207091183864179252211942311208211141312054308041169113178650310978307070309521310054312010000000, 0, 35, 40, 24302000000000000000000000000000000000000000000000000000000000000000000000000000000000000000000000000000000000000000000000000000000024302000000000000000000000000000000000000000000000000000000000000000000000000000000000000000000000000000000000000000000000000000000024302000000000000000000000000000000000000000000000000000000000000000000000000000000000000000000000000000000000000000000000000000000024302000000000000000000000000000000000000000000000000000000000000000000000000000000000000000000000000000000000000000000000000000000024302000000000000000000000000000000000000000000000000000000000000000000000000000000000000000000000000000000000000000000000000000000024302000000000000000000000000000000000000000000000000000000000000000000000000000000000000000000000000000000000000000000000000000000024302000000000000000000000000000000000000000000000000000000000000000000000000000000000000000000000000000000000000000000000000000000024302000000000000000000000000000000000000000000000000000000000000000000000000000000000000000000000000000000000000000000000000000000024302000000000000000000000000000000000000000000000000000000000000000000000000000000000000000000000000000000000000000000000000000000024302000000000000000000000000000000000000000000000000000000000000000000000000000000000000000000000000000000000000000000000000000000024302000000000000000000000000000000000000000000000000000000000000000000000000000000000000000000000000000000000000000000000000000000024302000000000000000000000000000000000000000000000000000000000000000000000000000000000000000000000000000000000000000000000000000000024302000000000000000000000000000000000000000000000000000000000000000000000000000000000000000000000000000000000000000000000000000000024302000000000000000000000000000000000000000000000000000000000000000000000000000000000000000000000000000000000000000000000000000000024302000000000000000000000000000000000000000000000000000000000000000000000000000000000000000000000000000000000000000000000000000000024302000000000000000000000000000000000000000000000000000000000000000000000000000000000000000000000000000000000000000000000000000000024302000000000000000000000000000000000000000000000000000000000000000000000000000000000000000000000000000000000000000000000000000000024302000000000000000000000000000000000000000000000000000000000000000000000000000000000000000000000000000000000000000000000000000000024302000000000000000000000000000000000000000000000000000000000000000000000000000000000000000000000000000000000000000000000000000000024302000000000000000000000000000000000000000000000000000000000000000000000000000000000000000000000000000000000000000000000000000000024302, 100000000001000001000001000001000001000001000001000001000001000001000001000001000001000001000001000001000001000001000001000001000001100000000001000001000001000001000001000001000001000001000001000001000001000001000001000001000001000001000001000001000001000001000001100000000001000001000001000001000001000001000001000001000001000001000001000001000001000001000001000001000001000001000001000001000001100000000001000001000001000001000001000001000001000001000001000001000001000001000001000001000001000001000001000001000001000001000001100000000001000001000001000001000001000001000001000001000001000001000001000001000001000001000001000001000001000001000001000001000001100000000001000001000001000001000001000001000001000001000001000001000001000001000001000001000001000001000001000001000001000001000001100000000001000001000001000001000001000001000001000001000001000001000001000001000001000001000001000001000001000001000001000001000001100000000001000001000001000001000001000001000001000001000001000001000001000001000001000001000001000001000001000001000001000001000001100000000001000001000001000001000001000001000001000001000001000001000001000001000001000001000001000001000001000001000001000001000001100000000001000001000001000001000001000001000001000001000001000001000001000001000001000001000001000001000001000001000001000001000001100000000001000001000001000001000001000001000001000001000001000001000001000001000001000001000001000001000001000001000001000001000001100000000001000001000001000001000001000001000001000001000001000001000001000001000001000001000001000001000001000001000001000001000001100000000001000001000001000001000001000001000001000001000001000001000001000001000001000001000001000001000001000001000001000001000001100000000001000001000001000001000001000001000001000001000001000001000001000001000001000001000001000001000001000001000001000001000001100000000001000001000001000001000001000001000001000001000001000001000001000001000001000001000001000001000001000001000001000001000001100000000001000001000001000001000001000001000001000001000001000001000001000001000001000001000001000001000001000001000001000001000001100000000001000001000001000001000001000001000001000001000001000001000001000001000001000001000001000001000001000001000001000001000001100000000001000001000001000001000001000001000001000001000001000001000001000001000001000001000001000001000001000001000001000001000001100000000001000001000001000001000001000001000001000001000001000001000001000001000001000001000001000001000001000001000001000001000001100000000001000001000001000001000001000001000001000001000001000001000001000001000001000001000001000001000001000001000001000001000001100000, 516090500000500000500000500000500000500000500000500000500000500000500000500000500000500000500000500000500000500000500000500000500000516090500000500000500000500000500000500000500000500000500000500000500000500000500000500000500000500000500000500000500000500000500000516090500000500000500000500000500000500000500000500000500000500000500000500000500000500000500000500000500000500000500000500000500000516090500000500000500000500000500000500000500000500000500000500000500000500000500000500000500000500000500000500000500000500000500000516090500000500000500000500000500000500000500000500000500000500000500000500000500000500000500000500000500000500000500000500000500000516090500000500000500000500000500000500000500000500000500000500000500000500000500000500000500000500000500000500000500000500000500000516090500000500000500000500000500000500000500000500000500000500000500000500000500000500000500000500000500000500000500000500000500000516090500000500000500000500000500000500000500000500000500000500000500000500000500000500000500000500000500000500000500000500000500000516090500000500000500000500000500000500000500000500000500000500000500000500000500000500000500000500000500000500000500000500000500000516090500000500000500000500000500000500000500000500000500000500000500000500000500000500000500000500000500000500000500000500000500000516090500000500000500000500000500000500000500000500000500000500000500000500000500000500000500000500000500000500000500000500000500000516090500000500000500000500000500000500000500000500000500000500000500000500000500000500000500000500000500000500000500000500000500000516090500000500000500000500000500000500000500000500000500000500000500000500000500000500000500000500000500000500000500000500000500000516090500000500000500000500000500000500000500000500000500000500000500000500000500000500000500000500000500000500000500000500000500000516090500000500000500000500000500000500000500000500000500000500000500000500000500000500000500000500000500000500000500000500000500000516090500000500000500000500000500000500000500000500000500000500000500000500000500000500000500000500000500000500000500000500000500000516090500000500000500000500000500000500000500000500000500000500000500000500000500000500000500000500000500000500000500000500000500000516090500000500000500000500000500000500000500000500000500000500000500000500000500000500000500000500000500000500000500000500000500000516090500000500000500000500000500000500000500000500000500000500000500000500000500000500000500000500000500000500000500000500000500000516090500000500000500000500000500000500000500000500000500000500000500000500000500000500000500000500000500000500000500000500000500000516090⟩

def se3Cert22 : Cert := ⟨171132178049273579163329284035312459285574170868177803283916167546282944196912168980178869287278313523273852225995176298313394171132000000177427275859284037164124311569274521197253176886284795281922168970171017280820174711167814175934284302231943313844311604178049177427000000175741183549313498198922313027276488306982166746173882171192159242313888208274312469200408313041299738300208211023273579275859175741000000165692164213176563273544263226177545171573163373290328262580291542313646164811312489275056197949312779176536163329284037183549165692000000276273313432283391203933314111281351189990273794169703275219312295186620313559162801165060177880181914284035164124313498164213276273000000183541164428169856181343279582189837274345205775276038311679185564180022285250165390313777311475312459311569198922176563313432183541000000176703160045212243167117173541170543276969313360207248311547299792177382300004200261307380285574274521313027273544283391164428176703000000195516313847284971167954282254170553169474179104287140177118171056226872311528178900170868197253276488263226203933169856160045195516000000160183237216298140265985154245266956313300299815271924170602295490159239276016177803176886306982177545314111181343212243313847160183000000166931312107314058276417171133208839177159301490312241302667202413199126283916284795166746171573281351279582167117284971237216166931000000275778174373236917174518312858278913168733284679258802169111167307167546281922173882163373189990189837173541167954298140312107275778000000263894298037186206174064279665256665282958168772256953312916282944168970171192290328273794274345170543282254265985314058174373263894000000265764283663170449184329169867169156196534169918313629196912171017159242262580169703205775276969170553154245276417236917298037265764000000265868313333299584159655197137295531271520160048168980280820313888291542275219276038313360169474266956171133174518186206283663265868000000174210268574172471281048192427173716171451178869174711208274313646312295311679207248179104313300208839312858174064170449313333174210000000174595310776175627313425310405209026287278167814312469164811186620185564311547287140299815177159278913279665184329299584268574174595000000250735167570168623250477176317313523175934200408312489313559180022299792177118271924301490168733256665169867159655172471310776250735000000313872152128205145203175273852284302313041275056162801285250177382171056170602312241284679282958169156197137281048175627167570313872000000231049174502176625225995231943299738197949165060165390300004226872295490302667258802168772196534295531192427313425168623152128231049000000152395301594176298313844300208312779177880313777200261311528159239202413169111256953169918271520173716310405250477205145174502152395000000302852313394311604211023176536181914311475307380178900276016199126167307312916313629160048171451209026176317203175176625301594302852000000, 163329164124159242163373162801164124160045164428154245160183166746163373168970154245168980170449164811152128162801152128152395160048, 64591, 64608, 99999029620026792004463033012003503001732003378029731026890003513031153003594019971030534026469003243001685004435011982027492001690029620099999027040004237003503032657001772004368019860027256003441003681030539029668003778028135031037027639003481010700001671001771026792027040099999027717024668001686019322001706004176001994031501028475029595034870001669016495001731018852001706002394002366015724004463004237027717099999031963032617027385004467005622026993029435032992003015005702002927001679032352001731004315019635001718027396033012003503024668031963099999004197001689003557017768001659003731022322004441030225004299001739023530001683033249032241026859025288003503032657001686032617004197099999024671032521030160025507003888022375004386017219004219001767023917026017003404032096001673001777001732001772019322027385001689024671099999027329034501015390031339028616029869004130001692016790001773002390027057002378018898001974003378004368001706004467003557032521027329099999020431001670003426030976003653029864030323026376003254027163029652011786001774026456029731019860004176005622017768030160034501020431099999034437009655002490005291037215005179001694002389004634029844002659034871004222026890027256001994026993001659025507015390001670034437099999031420001748001661004183029620016334027146002291001742002224018230019257003513003441031501029435003731003888031339003426009655031420099999004245028274009712028214001714003949030640003450006188030478031256031153003681028475032992022322022375028616030976002490001748004245099999005541002497023681028400003880006478003593030624006438001711003594030539029595003015004441004386029869003653005291001661028274005541099999005317003534029908024375030156030459020095030134001680019971029668034870005702030225017219004130029864037215004183009712002497005317099999005305001693002403034680019898002656004676034499030534003778001669002927004299004219001692030323005179029620028214023681003534005305099999028340004996029059003757021474028544029486026469028135016495001679001739001767016790026376001694016334001714028400029908001693028340099999028183001809027763001689001826016281003243031037001731032352023530023917001773003254002389027146003949003880024375002403004996028183099999007341031142030688007380027484001685027639018852001731001683026017002390027163004634002291030640006478030156034680029059001809007341099999001669038231017406017997004435003481001706004315033249003404027057029652029844001742003450003593030459019898003757027763031142001669099999010885028221027360011982010700002394019635032241032096002378011786002659002224006188030624020095002656021474001689030688038231010885099999038102002285027492001671002366001718026859001673018898001774034871018230030478006438030134004676028544001826007380017406028221038102099999002214001690001771015724027396025288001777001974026456004222019257031256001711001680034499029486016281027484017997027360002285002214099999, 100000029657026828004476033050003514001739003388029768026925003524031190003605020002030572026504003254001691004448012005027528001697029657100000027075004249003514032695001779004381019891027291003451003692030576029705003789028172031074027675003492010722001677001778026828027075100000027753024702001692019353001713004188002001031538028512029631034909001675016523001738018882001713002402002374015751004476004249027753100000032000032655027421004479005637027028029471033030003024005717002937001686032389001737004328019665001724027432033050003514024702032000100000004209001695003567017797001666003742022354004454030262004312001746023563001690033287032279026895025322003514032695001692032655004209100000024705032559030197025541003899022408004398017248004231001774023951026052003414032133001680001783001739001779019353027421001695024705100000027365034539015417031377028652029906004142001698016818001780002399027093002386018928001981003388004381001713004479003567032559027365100000020462001677003437031013003664029901030360026411003264027198029689011809001781026492029768019891004188005637017797030197034539020462100000034476009675002499005305037254005193001701002397004646029881002668034910004234026925027291002001027028001666025541015417001677034476100000031458001755001668004195029656016362027182002299001748002232018259019287003524003451031538029471003742003899031377003437009675031458100000004257028310009732028250001721003960030678003461006204030515031294031190003692028512033030022354022408028652031013002499001755004257100000005555002505023715028437003892006494003604030661006454001718003605030576029631003024004454004398029906003664005305001668028310005555100000005331003545029945024410030193030496020126030171001687020002029705034909005717030262017248004142029901037254004195009732002505005331100000005319001700002411034719019929002665004689034538030572003789001675002937004312004231001698030360005193029656028250023715003545005319100000028377005009029096003769021506028580029523026504028172016523001686001746001774016818026411001701016362001721028437029945001700028377100000028219001816027799001696001833016309003254031074001738032389023563023951001780003264002397027182003960003892024410002411005009028219100000007358031180030725007397027520001691027675018882001737001690026052002399027198004646002299030678006494030193034719029096001816007358100000001676038271017435018026004448003492001713004328033287003414027093029689029881001748003461003604030496019929003769027799031180001676100000010907028257027396012005010722002402019665032279032133002386011809002668002232006204030661020126002665021506001696030725038271010907100000038142002293027528001677002374001724026895001680018928001781034910018259030515006454030171004689028580001833007397017435028257038142100000002222001697001778015751027432025322001783001981026492004234019287031294001718001687034538029523016309027520018026027396002293002222100000, 519049496006497105501688495058501391501730501492496382497289501404495806501449499321496018497182501388501469501657500708497068501639496006519112497251501715501381495181501584501606499314496987501460501353496168496397501461496832495913497021501511500862501445501689497105497251518512496851497945501791498805501755501538501773495661496369496160494735501765498848501821499491501592501368501783499741501688501715496851519686495418495313496935501690501164496965496691495529501355501193501382501686495678501412501698499801501396496869495058501381497945495418519286501422501778501400499836501793501144498823501191495984501267501888498564502097495072495423497709497857501391495181501791495313501422519201497960495165495981497804501140498820501162499864501264501888498499497797501406495448502090501770501730501584498805496935501778497960518488497012494832499760495681496351496107501553501760498824501810501793497265501376499473501771501492501606501755501690501400495165497012518977499248501659501401495853501475496322496051497185501389497105496012500694501453497370496382499314501538501164499836495981494832499248520853494879501104501513501596493530501557501607501518501234496395501791494598501572497289496987501773496965501793497804499760501659494879518377495669501786501797501551496157498760496632501779501673501434499472498699501404501460495661496691501144501140495681501401501104495669519830501542497436501118497333501726501478495533501458501921495543495722495806501353496369495529498823498820496351495853501513501786501542519041501098501502497832496519501815501144501346495284501169501794501449496168496160501355501191501162496107501475501596501797497436501098519042501582501626496353497641496017496183498942496027501782499321496397494735501193495984499864501553496322493530501551501118501502501582520892501543501611501501494590499350501785501264494852496018501461501765501382501267501264501760496051501557496157497333497832501626501543518749496542501098496324501430498507496448496151497182496832498848501686501888501888498824497185501607498760501726496519496353501611496542517758496709501859496885501561501842498750501388495913501821495678498564498499501810501389501518496632501478501815497641501501501098496709518859501081495881495362501091496587501469497021499491501412502097497797501793497105501234501779495533501144496017494590496324501859501081519845501425493565500347499537501657501511501592501698495072501406497265496012496395501673501458501346496183499350501430496885495881501425519198500885496957496953500708500862501368499801495423495448501376500694501791501434501921495284498942501785498507501561495362493565500885520552493608501419497068501445501783501396497709502090499473501453494598499472495543501169496027501264496448501842501091500347496957493608519871501788501639501689499741496869497857501770501771497370501572498699495722501794501782494852496151498750496587499537496953501419501788518375⟩

def e3Cert22 : ℕ × ℕ × Cert := ⟨140764000000148062157051148953000000000000147990000000147399000000000000000000149890157076140970075509000000157079000000000000000000142531148072000000156999141506000000000000148498146758000000000000146039000000000000000000148218087808157077157015000000000000000000000000000000157067000000157076143010156572000000000000000000000000157071000000157061000000157067154995155131023434140764142531000000000000000000000000000000140745131412000000000000000000151424130758151998157063000000157055141929000000157072000000000000148072000000000000000000142853157077147670000000157077146392000000140947000000142049157039000000157072000000000000000000000000148062000000157067000000142853000000000000000000000000000000145206000000141354000000142673157019000000000000148785000000157079157007157051156999000000000000157077000000000000000000000000031155000000000000000000143364157074000000157003155021000000155073000000156610148953141506157076140745147670000000000000000000000000157075148619000000146967000000000000000000149815000000000000077454157004000000000000000000143010131412000000000000000000000000000000000000097242154513134118000000135026157062155033139419000000153613000000142644000000000000156572000000157077000000031155157075000000000000000000157048157077142951000000000000000000155476157038155767000000000000147990148498000000000000146392145206000000148619097242000000000000142471000000096724000000157057144756000000148440126738000000000000000000146758000000000000000000000000000000000000154513157048142471000000132093154480000000000000145272124343147412000000124678157056147399000000000000151424140947141354000000146967134118157077000000132093000000133901147843000000000000000000000000000000000000157071000000000000000000130758000000000000143364000000000000142951096724154480133901000000134006157070154966000000000000153628139072000000000000146039157071151998142049142673157074000000135026000000000000000000147843134006000000000000136513000000146190000000000000000000000000000000000000157063157039157019000000000000157062000000157057000000000000157070000000000000000000156977000000157079156937000000149890000000157061000000000000000000157003149815155033000000144756145272000000154966136513000000000000117126000000000000116809000000157076000000000000157055157072000000155021000000139419155476000000124343000000000000000000156977117126000000157079000000000000000000140970148218157067141929000000148785000000000000000000157038148440147412000000000000146190000000000000157079000000086084000000000000075509087808154995000000000000000000155073077454153613155767126738000000000000153628000000157079000000000000086084000000000000155507000000157077155131157072000000157079000000157004000000000000000000124678000000139072000000156937116809000000000000000000000000155810157079157015023434000000000000157007156610000000142644000000000000157056157071000000000000000000000000000000000000155507155810000000, 0, 171132178049273579163329284035312459285574170868177803283916167546282944196912168980178869287278313523273852225995176298313394171132000000177427275859284037164124311569274521197253176886284795281922168970171017280820174711167814175934284302231943313844311604178049177427000000175741183549313498198922313027276488306982166746173882171192159242313888208274312469200408313041299738300208211023273579275859175741000000165692164213176563273544263226177545171573163373290328262580291542313646164811312489275056197949312779176536163329284037183549165692000000276273313432283391203933314111281351189990273794169703275219312295186620313559162801165060177880181914284035164124313498164213276273000000183541164428169856181343279582189837274345205775276038311679185564180022285250165390313777311475312459311569198922176563313432183541000000176703160045212243167117173541170543276969313360207248311547299792177382300004200261307380285574274521313027273544283391164428176703000000195516313847284971167954282254170553169474179104287140177118171056226872311528178900170868197253276488263226203933169856160045195516000000160183237216298140265985154245266956313300299815271924170602295490159239276016177803176886306982177545314111181343212243313847160183000000166931312107314058276417171133208839177159301490312241302667202413199126283916284795166746171573281351279582167117284971237216166931000000275778174373236917174518312858278913168733284679258802169111167307167546281922173882163373189990189837173541167954298140312107275778000000263894298037186206174064279665256665282958168772256953312916282944168970171192290328273794274345170543282254265985314058174373263894000000265764283663170449184329169867169156196534169918313629196912171017159242262580169703205775276969170553154245276417236917298037265764000000265868313333299584159655197137295531271520160048168980280820313888291542275219276038313360169474266956171133174518186206283663265868000000174210268574172471281048192427173716171451178869174711208274313646312295311679207248179104313300208839312858174064170449313333174210000000174595310776175627313425310405209026287278167814312469164811186620185564311547287140299815177159278913279665184329299584268574174595000000250735167570168623250477176317313523175934200408312489313559180022299792177118271924301490168733256665169867159655172471310776250735000000313872152128205145203175273852284302313041275056162801285250177382171056170602312241284679282958169156197137281048175627167570313872000000231049174502176625225995231943299738197949165060165390300004226872295490302667258802168772196534295531192427313425168623152128231049000000152395301594176298313844300208312779177880313777200261311528159239202413169111256953169918271520173716310405250477205145174502152395000000302852313394311604211023176536181914311475307380178900276016199126167307312916313629160048171451209026176317203175176625301594302852000000, 0, 35, 40, 24302000000000000000000000000000000000000000000000000000000000000000000000000000000000000000000000000000000000000000000000000000000000000024302000000000000000000000000000000000000000000000000000000000000000000000000000000000000000000000000000000000000000000000000000000000000024302000000000000000000000000000000000000000000000000000000000000000000000000000000000000000000000000000000000000000000000000000000000000024302000000000000000000000000000000000000000000000000000000000000000000000000000000000000000000000000000000000000000000000000000000000000024302000000000000000000000000000000000000000000000000000000000000000000000000000000000000000000000000000000000000000000000000000000000000024302000000000000000000000000000000000000000000000000000000000000000000000000000000000000000000000000000000000000000000000000000000000000024302000000000000000000000000000000000000000000000000000000000000000000000000000000000000000000000000000000000000000000000000000000000000024302000000000000000000000000000000000000000000000000000000000000000000000000000000000000000000000000000000000000000000000000000000000000024302000000000000000000000000000000000000000000000000000000000000000000000000000000000000000000000000000000000000000000000000000000000000024302000000000000000000000000000000000000000000000000000000000000000000000000000000000000000000000000000000000000000000000000000000000000024302000000000000000000000000000000000000000000000000000000000000000000000000000000000000000000000000000000000000000000000000000000000000024302000000000000000000000000000000000000000000000000000000000000000000000000000000000000000000000000000000000000000000000000000000000000024302000000000000000000000000000000000000000000000000000000000000000000000000000000000000000000000000000000000000000000000000000000000000024302000000000000000000000000000000000000000000000000000000000000000000000000000000000000000000000000000000000000000000000000000000000000024302000000000000000000000000000000000000000000000000000000000000000000000000000000000000000000000000000000000000000000000000000000000000024302000000000000000000000000000000000000000000000000000000000000000000000000000000000000000000000000000000000000000000000000000000000000024302000000000000000000000000000000000000000000000000000000000000000000000000000000000000000000000000000000000000000000000000000000000000024302000000000000000000000000000000000000000000000000000000000000000000000000000000000000000000000000000000000000000000000000000000000000024302000000000000000000000000000000000000000000000000000000000000000000000000000000000000000000000000000000000000000000000000000000000000024302000000000000000000000000000000000000000000000000000000000000000000000000000000000000000000000000000000000000000000000000000000000000024302000000000000000000000000000000000000000000000000000000000000000000000000000000000000000000000000000000000000000000000000000000000000024302, 100000000001000001000001000001000001000001000001000001000001000001000001000001000001000001000001000001000001000001000001000001000001000001100000000001000001000001000001000001000001000001000001000001000001000001000001000001000001000001000001000001000001000001000001000001000001100000000001000001000001000001000001000001000001000001000001000001000001000001000001000001000001000001000001000001000001000001000001000001100000000001000001000001000001000001000001000001000001000001000001000001000001000001000001000001000001000001000001000001000001000001000001100000000001000001000001000001000001000001000001000001000001000001000001000001000001000001000001000001000001000001000001000001000001000001100000000001000001000001000001000001000001000001000001000001000001000001000001000001000001000001000001000001000001000001000001000001000001100000000001000001000001000001000001000001000001000001000001000001000001000001000001000001000001000001000001000001000001000001000001000001100000000001000001000001000001000001000001000001000001000001000001000001000001000001000001000001000001000001000001000001000001000001000001100000000001000001000001000001000001000001000001000001000001000001000001000001000001000001000001000001000001000001000001000001000001000001100000000001000001000001000001000001000001000001000001000001000001000001000001000001000001000001000001000001000001000001000001000001000001100000000001000001000001000001000001000001000001000001000001000001000001000001000001000001000001000001000001000001000001000001000001000001100000000001000001000001000001000001000001000001000001000001000001000001000001000001000001000001000001000001000001000001000001000001000001100000000001000001000001000001000001000001000001000001000001000001000001000001000001000001000001000001000001000001000001000001000001000001100000000001000001000001000001000001000001000001000001000001000001000001000001000001000001000001000001000001000001000001000001000001000001100000000001000001000001000001000001000001000001000001000001000001000001000001000001000001000001000001000001000001000001000001000001000001100000000001000001000001000001000001000001000001000001000001000001000001000001000001000001000001000001000001000001000001000001000001000001100000000001000001000001000001000001000001000001000001000001000001000001000001000001000001000001000001000001000001000001000001000001000001100000000001000001000001000001000001000001000001000001000001000001000001000001000001000001000001000001000001000001000001000001000001000001100000000001000001000001000001000001000001000001000001000001000001000001000001000001000001000001000001000001000001000001000001000001000001100000000001000001000001000001000001000001000001000001000001000001000001000001000001000001000001000001000001000001000001000001000001000001100000000001000001000001000001000001000001000001000001000001000001000001000001000001000001000001000001000001000001000001000001000001000001100000, 516090500000500000500000500000500000500000500000500000500000500000500000500000500000500000500000500000500000500000500000500000500000500000516090500000500000500000500000500000500000500000500000500000500000500000500000500000500000500000500000500000500000500000500000500000500000516090500000500000500000500000500000500000500000500000500000500000500000500000500000500000500000500000500000500000500000500000500000500000516090500000500000500000500000500000500000500000500000500000500000500000500000500000500000500000500000500000500000500000500000500000500000516090500000500000500000500000500000500000500000500000500000500000500000500000500000500000500000500000500000500000500000500000500000500000516090500000500000500000500000500000500000500000500000500000500000500000500000500000500000500000500000500000500000500000500000500000500000516090500000500000500000500000500000500000500000500000500000500000500000500000500000500000500000500000500000500000500000500000500000500000516090500000500000500000500000500000500000500000500000500000500000500000500000500000500000500000500000500000500000500000500000500000500000516090500000500000500000500000500000500000500000500000500000500000500000500000500000500000500000500000500000500000500000500000500000500000516090500000500000500000500000500000500000500000500000500000500000500000500000500000500000500000500000500000500000500000500000500000500000516090500000500000500000500000500000500000500000500000500000500000500000500000500000500000500000500000500000500000500000500000500000500000516090500000500000500000500000500000500000500000500000500000500000500000500000500000500000500000500000500000500000500000500000500000500000516090500000500000500000500000500000500000500000500000500000500000500000500000500000500000500000500000500000500000500000500000500000500000516090500000500000500000500000500000500000500000500000500000500000500000500000500000500000500000500000500000500000500000500000500000500000516090500000500000500000500000500000500000500000500000500000500000500000500000500000500000500000500000500000500000500000500000500000500000516090500000500000500000500000500000500000500000500000500000500000500000500000500000500000500000500000500000500000500000500000500000500000516090500000500000500000500000500000500000500000500000500000500000500000500000500000500000500000500000500000500000500000500000500000500000516090500000500000500000500000500000500000500000500000500000500000500000500000500000500000500000500000500000500000500000500000500000500000516090500000500000500000500000500000500000500000500000500000500000500000500000500000500000500000500000500000500000500000500000500000500000516090500000500000500000500000500000500000500000500000500000500000500000500000500000500000500000500000500000500000500000500000500000500000516090500000500000500000500000500000500000500000500000500000500000500000500000500000500000500000500000500000500000500000500000500000500000516090⟩

def se3Cert23 : Cert := ⟨153915157937200809310981312836159782211830312264158894205422239440306983151550306874214530306043212326152821212807232537308419313200153915000000311664156439313107210626208148313621158368207634155928162731312337208256208022156520207134312527208223312346285146311862313089157937311664000000310622313719210368206714157493158430207659311436281251313934208459213457313019212477158001208409153676162608310588313153200809156439310622000000211052312635310511311048214809310479207992240711155918154003157512312928157598310677155145214708233438212259313401310981313107313719211052000000155436312576206752312202158506209275241849157962313354157184212019311600212914158210211670235038312518156434312836210626210368312635155436000000312640155465156811210301159070278946210145312794312579157905208600311242209470312998161415311606208171159782208148206714310511312576312640000000157183311310209170312229162116212696311288310486157888213057311255206563157222286248160272209598211830313621157493311048206752155465157183000000211935313401211106240064312368312379309999313338159678312997155913209908234637213278155684312264158368158430214809312202156811311310211935000000313513212825180491311214310557159039203790161776205272313652211813183140304679312527158894207634207659310479158506210301209170313401313513000000155299312230212486208349212692161643310080161463311609156828312989311668209552205422155928311436207992209275159070312229211106212825155299000000312722312232156460313670211536154781210236311646312113312688211024157176239440162731281251240711241849278946162116240064180491312230312722000000279196280806162251178505313545181450206680313127221925179764165084306983312337313934155918157962210145212696312368311214212486312232279196000000207489208856159557209590309387209064160269161293157974313935151550208256208459154003313354312794311288312379310557208349156460280806207489000000311509311683207429156717207413311392160834156882211046306874208022213457157512157184312579310486309999159039212692313670162251208856311509000000309463211764160167206464160650285994309231209041214530156520313019312928212019157905157888313338203790161643211536178505159557311683309463000000311639305216312533212723184409205762311630306043207134212477157598311600208600213057159678161776310080154781313545209590207429211764311639000000310645312729161441313302161895207513212326312527158001310677212914311242311255312997205272161463210236181450309387156717160167305216310645000000313178211409183134201498157365152821208223208409155145158210209470206563155913313652311609311646206680209064207413206464312533312729313178000000311142199714314057209868212807312346153676214708211670312998157222209908211813156828312113313127160269311392160650212723161441211409311142000000311711215421314020232537285146162608233438235038161415286248234637183140312989312688221925161293160834285994184409313302183134199714311711000000183302284980308419311862310588212259312518311606160272213278304679311668211024179764157974156882309231205762161895201498314057215421183302000000156156313200313089313153313401156434208171209598155684312527209552157176165084313935211046209041311630207513157365209868314020284980156156000000, 151550153915153676154003155436155436157183155465156811155299154781162116155918151550157184156520154781156717152821153676160834156156155684, 62209, 62226, 99999034609032718016431001315001249031871013403001269032277015108007672001469035747001473012730001507013278035133013157008877001412001236034609099999001290033416001239013712014364001221032519014503033656030542001266014336014398033378014638001259014344001266002621001283001240032718001290099999001328001218013779014752032924032491014496001298002894001211014281012994001242013240032689014295034723030597001329001238016431033416001328099999013602001256001332001313012662001334014406007465033660034567032916001245032876001326034025012686008711013295001229001315001239001218013602099999033887001258014742001271032456014065007283032707001231033068013355001292013130032592013444008424001260033418001249013712013779001256033887099999001255033874033242013796032196003066013837001250001258032733014244001305014014001243031131001292014358031871014364014752001332001258001255099999033068001303014093001270030816013184001304001333032741013094001305014794033050002548031648013980013403001221032924001313014742033874033068099999013377001229013588007569001265001265001351001231031918001243033663013899008495013039033770001269032519032491012662001271033242001303013377099999001225013152023245001306001331032211015567030969015150001220013408022264001565001259032277014503014496001334032456013796014093001229001225099999033952001270013237014311013185031028001348031109001292033234001243001290013992015108033656001298014406014065032196001270013588013152033952099999001253001270033406001220013478034197013813001291001274001254013609033072007672030542002894007465007283003066030816007569023245001270001253099999003047002926030756024000001224022887014762001238011017023520029505001469001266001211033660032707013837013184001265001306013237001270003047099999014542014176031973013982001375014121031649031186032701001211035747014336014281034567001231001250001304001265001331014311033406002926014542099999001296001289014558033286014562001300031393033209013604001473014398012994032916033068001258001333001351032211013185001220030756014176001296099999001372013420031695014821031476002565001381014127012730033378001242001245013355032733032741001231015567031028013478024000031973001289001372099999001291001542001259013178021804015014001291001507014638013240032876001292014244013094031918030969001348034197001224013982014558013420001291099999001327001252031119001232030915014535013278001259032689001326013130001305001305001243015150031109013813022887001375033286031695001542001327099999001237013511022266016228032984035133014344014295034025032592014014014794033663001220001292001291014762014121014562014821001259001252001237099999001309016757001206013909013157001266034723012686013444001243033050013899013408033234001274001238031649001300031476013178031119013511001309099999001288012513001208008877002621030597008711008424031131002548008495022264001243001254011017031186031393002565021804001232022266016757001288099999022205002632001412001283001329013295001260001292031648013039001565001290013609023520032701033209001381015014030915016228001206012513022205099999033548001236001240001238001229033418014358013980033770001259013992033072029505001211013604014127001291014535032984013909001208002632033548099999, 100000034649032758016460001321001254031910013429001274032317015136007690001475035787001480012755001514013303035173013182008897001418001241034649100000001296033456001245013738014391001227032559014530033695030580001272014362014425033418014665001265014371001272002630001289001245032758001296100000001334001224013805014780032964032530014523001304002903001216014308013020001248013265032728014322034763030635001335001243016460033456001334100000013628001261001338001318012687001339014433007483033700034607032955001251032915001332034065012711008731013320001235001321001245001224013628100000033927001263014769001277032495014092007301032746001236033108013381001298013155032632013470008443001265033458001254013738013805001261033927100000001261033913033282013823032236003076013863001256001263032773014271001311014040001249031170001298014385031910014391014780001338001263001261100000033108001309014119001276030855013210001310001339032781013120001311014821033090002557031687014007013429001227032964001318014769033913033108100000013403001235013615007588001271001270001357001237031957001249033702013925008515013064033810001274032559032530012687001277033282001309013403100000001231013178023280001312001336032250015595031007015178001226013434022298001571001265032317014530014523001339032495013823014119001235001231100000033992001276013263014338013211031067001354031148001298033274001249001296014019015136033695001304014433014092032236001276013615013178033992100000001258001276033446001225013504034237013840001297001280001259013636033111007690030580002903007483007301003076030855007588023280001276001258100000003057002936030795024035001230022921014789001244011040023555029543001475001272001216033700032746013863013210001271001312013263001276003057100000014569014203032013014009001381014147031688031225032741001216035787014362014308034607001236001256001310001270001336014338033446002936014569100000001302001295014585033326014589001306031432033248013630001480014425013020032955033108001263001339001357032250013211001225030795014203001302100000001378013446031734014848031515002574001387014153012755033418001248001251013381032773032781001237015595031067013504024035032013001295001378100000001297001548001265013203021837015042001297001514014665013265032915001298014271013120031957031007001354034237001230014009014585013446001297100000001333001258031158001238030954014562013303001265032728001332013155001311001311001249015178031148013840022921001381033326031734001548001333100000001242013537022300016257033023035173014371014322034065032632014040014821033702001226001298001297014789014147014589014848001265001258001242100000001315016786001212013936013182001272034763012711013470001249033090013925013434033274001280001244031688001306031515013203031158013537001315100000001294012538001213008897002630030635008731008443031170002557008515022298001249001259011040031225031432002574021837001238022300016786001294100000022239002642001418001289001335013320001265001298031687013064001571001296013636023555032741033248001387015042030954016257001212012538022239100000033588001241001245001243001235033458014385014007033810001265014019033111029543001216013630014153001297014562033023013936001213002642033588100000, 521111493173493511502514503251499028493817502518502664493607502418501423499063492817499156501837499093501849493649502419501579502649499112493173519967502842493416499157501933501380499128494628501806493491495622502847502313501306494479501715500118500982499283500301500111502325493511502842519838499055499152501618501766493536494588501720499167500426502512501705501917500081501803494535500936493366495380500065502832502514493416499055520966502431499047499186503263501783499099502431501411493409493062493655502675493567502657493872502237501588501844499134503251499157499152502431520527493365499288502346502645493674502278501379493640498994493678501664499239501697494180502108501503502661493528499028501933501618499047493365519928502806493346494434501811493748500457501570502528502812494505501732500067500972499301495303500058501954493817501380501766499186499288502806519333493634500241501579499321495604501780502829502249494676501625500208500697493816500356494882501352502518499128493536503263502346493346493634520682501692499179502379501376499148498968499239502668493779502676493962502174501505501728493434502664494628494588501783502645494434500241501692518391499887501649498265500109499980494761500277494689500188500337501409498564501204500158493607501806501720499099493674501811501579499179499887519779493394500773501750501962501692494641502907494633502670493638500591499860501774502418493491499167502431502278493748499321502379501649493394520705502083499235493410499358501615493418501606499950503084502256501668493651501423495622500426501411501379500457495604501376498265500773502083516759500486500401495590498192500818498278498005502112499399498181495828499063502847502512493409493640501570501780499148500109501750499235500486519558501667501710494675501586500085500919493965495312494548502832492817502313501705493062498994502528502829498968499980501962493410500401501667520517502843499976501884494365501210499161495197494367502067499156501306501917493655493678502812502249499239494761501692499358495590501710502843519238500215501559494848500654494107500362500198501291501837494479500081502675501664494505494676502668500277494641501615498192494675499976500215518448499879501215500320501484498630500227500148499093501715501803493567499239501732501625493779494689502907493418500818501586501884501559499879519530499882502683494051500644494688501691501849500118494535502657501697500067500208502676500188494633501606498278500085494365494848501215499882518420500320501511498598500237494538493649500982500936493872494180500972500697493962500337502670499950498005500919501210500654500320502683500320517827500061497638500334500805502419499283493366502237502108499301493816502174501409493638503084502112493965499161494107501484494051501511500061520064502279501470499353501579500301495380501588501503495303500356501505498564500591502256499399495312495197500362498630500644498598497638502279516905498632500356502649500111500065501844502661500058494882501728501204499860501668498181494548494367500198500227494688500237500334501470498632518467494435499112502325502832499134493528501954501352493434500158501774493651495828502832502067501291500148501691494538500805499353500356494435519763⟩

def e3Cert23 : ℕ × ℕ × Cert := ⟨156990157062000000028736157037000000000000100890156573000000156552041980156406031609000000034145088927156751157066000000000000157018000000157064020272000000157079000000000000000000000000157039000000000000000000000000157051000000157034148708157031157060000000157018000000156960157074017911000000000000000000000000157002146323157079000000037295157064032391000000000000000000000000156953157069000000000000156960000000023657157071156936156984043113156958000000102894000000000000000000157069000000156956000000042710090591031230157071156990157064157074023657000000000000157059000000157033000000000000104662000000157078000000029871157021034685000000027807093475157054000000157062020272017911157071000000000000157057000000000000017297000000144772015638157070157052000000000000157004003377157070000000157019000000000000000000000000156936157059157057000000000000156997000000157040000000033600157000156941000000035390156988000000000000149338000000007424028736157079000000156984000000000000000000000000029436157069024037101890157048157049156909157066000000157066000000012655092782036450000000157037000000000000043113157033000000156997029436000000157075034248000000156989156947000000000000000000000000157075028672000000156186157050000000000000000000156958000000017297000000157069157075000000000000157037032476000000033550000000156925000000157031000000157056157022006324000000000000157002000000000000000000157040024037034248000000000000157054157041000000157077026928000000016687157016157035157050023444000000100890000000146323102894104662144772000000101890000000157037157054000000144949146038000000000000157077000000000000157066065656000000000000156573157039157079000000000000015638033600157048156989032476157041144949000000000000000000000000007364156848000000000000000000000000157076000000000000000000000000157078157070157000157049156947000000000000146038000000000000157021157021000000000000000000157011000000000000023624156552000000037295000000000000157052156941156909000000033550157077000000000000157021000000156860028407000000000000000000149196156850000000041980000000157064157069029871000000000000157066000000000000026928000000000000157021156860000000157018156282157056033740000000000000157000156406000000032391000000157021000000035390000000000000156925000000157077007364000000028407157018000000156960157049000000157058000000000000031609157051000000156956034685157004156988157066000000000000016687000000156848000000000000156282156960000000157067026140000000000000000000000000000000000000000000000000003377000000000000157075157031157016000000000000000000000000157056157049157067000000156987000000157070012178034145157034000000042710027807157070000000012655028672000000157035157066000000157011000000033740000000026140156987000000157032045534157076088927148708000000090591093475000000149338092782000000157056157050065656000000000000149196000000157058000000000000157032000000000000148609156751157031156953031230157054157019000000036450156186157022023444000000000000000000156850000000000000000000157070045534000000000000000000157066157060157069157071000000000000007424000000157050006324000000000000157076023624000000157000000000000000012178157076148609000000000000, 0, 153915157937200809310981312836159782211830312264158894205422239440306983151550306874214530306043212326152821212807232537308419313200153915000000311664156439313107210626208148313621158368207634155928162731312337208256208022156520207134312527208223312346285146311862313089157937311664000000310622313719210368206714157493158430207659311436281251313934208459213457313019212477158001208409153676162608310588313153200809156439310622000000211052312635310511311048214809310479207992240711155918154003157512312928157598310677155145214708233438212259313401310981313107313719211052000000155436312576206752312202158506209275241849157962313354157184212019311600212914158210211670235038312518156434312836210626210368312635155436000000312640155465156811210301159070278946210145312794312579157905208600311242209470312998161415311606208171159782208148206714310511312576312640000000157183311310209170312229162116212696311288310486157888213057311255206563157222286248160272209598211830313621157493311048206752155465157183000000211935313401211106240064312368312379309999313338159678312997155913209908234637213278155684312264158368158430214809312202156811311310211935000000313513212825180491311214310557159039203790161776205272313652211813183140304679312527158894207634207659310479158506210301209170313401313513000000155299312230212486208349212692161643310080161463311609156828312989311668209552205422155928311436207992209275159070312229211106212825155299000000312722312232156460313670211536154781210236311646312113312688211024157176239440162731281251240711241849278946162116240064180491312230312722000000279196280806162251178505313545181450206680313127221925179764165084306983312337313934155918157962210145212696312368311214212486312232279196000000207489208856159557209590309387209064160269161293157974313935151550208256208459154003313354312794311288312379310557208349156460280806207489000000311509311683207429156717207413311392160834156882211046306874208022213457157512157184312579310486309999159039212692313670162251208856311509000000309463211764160167206464160650285994309231209041214530156520313019312928212019157905157888313338203790161643211536178505159557311683309463000000311639305216312533212723184409205762311630306043207134212477157598311600208600213057159678161776310080154781313545209590207429211764311639000000310645312729161441313302161895207513212326312527158001310677212914311242311255312997205272161463210236181450309387156717160167305216310645000000313178211409183134201498157365152821208223208409155145158210209470206563155913313652311609311646206680209064207413206464312533312729313178000000311142199714314057209868212807312346153676214708211670312998157222209908211813156828312113313127160269311392160650212723161441211409311142000000311711215421314020232537285146162608233438235038161415286248234637183140312989312688221925161293160834285994184409313302183134199714311711000000183302284980308419311862310588212259312518311606160272213278304679311668211024179764157974156882309231205762161895201498314057215421183302000000156156313200313089313153313401156434208171209598155684312527209552157176165084313935211046209041311630207513157365209868314020284980156156000000, 0, 35, 40, 24302000000000000000000000000000000000000000000000000000000000000000000000000000000000000000000000000000000000000000000000000000000000000000000024302000000000000000000000000000000000000000000000000000000000000000000000000000000000000000000000000000000000000000000000000000000000000000000024302000000000000000000000000000000000000000000000000000000000000000000000000000000000000000000000000000000000000000000000000000000000000000000024302000000000000000000000000000000000000000000000000000000000000000000000000000000000000000000000000000000000000000000000000000000000000000000024302000000000000000000000000000000000000000000000000000000000000000000000000000000000000000000000000000000000000000000000000000000000000000000024302000000000000000000000000000000000000000000000000000000000000000000000000000000000000000000000000000000000000000000000000000000000000000000024302000000000000000000000000000000000000000000000000000000000000000000000000000000000000000000000000000000000000000000000000000000000000000000024302000000000000000000000000000000000000000000000000000000000000000000000000000000000000000000000000000000000000000000000000000000000000000000024302000000000000000000000000000000000000000000000000000000000000000000000000000000000000000000000000000000000000000000000000000000000000000000024302000000000000000000000000000000000000000000000000000000000000000000000000000000000000000000000000000000000000000000000000000000000000000000024302000000000000000000000000000000000000000000000000000000000000000000000000000000000000000000000000000000000000000000000000000000000000000000024302000000000000000000000000000000000000000000000000000000000000000000000000000000000000000000000000000000000000000000000000000000000000000000024302000000000000000000000000000000000000000000000000000000000000000000000000000000000000000000000000000000000000000000000000000000000000000000024302000000000000000000000000000000000000000000000000000000000000000000000000000000000000000000000000000000000000000000000000000000000000000000024302000000000000000000000000000000000000000000000000000000000000000000000000000000000000000000000000000000000000000000000000000000000000000000024302000000000000000000000000000000000000000000000000000000000000000000000000000000000000000000000000000000000000000000000000000000000000000000024302000000000000000000000000000000000000000000000000000000000000000000000000000000000000000000000000000000000000000000000000000000000000000000024302000000000000000000000000000000000000000000000000000000000000000000000000000000000000000000000000000000000000000000000000000000000000000000024302000000000000000000000000000000000000000000000000000000000000000000000000000000000000000000000000000000000000000000000000000000000000000000024302000000000000000000000000000000000000000000000000000000000000000000000000000000000000000000000000000000000000000000000000000000000000000000024302000000000000000000000000000000000000000000000000000000000000000000000000000000000000000000000000000000000000000000000000000000000000000000024302000000000000000000000000000000000000000000000000000000000000000000000000000000000000000000000000000000000000000000000000000000000000000000024302, 100000000001000001000001000001000001000001000001000001000001000001000001000001000001000001000001000001000001000001000001000001000001000001000001100000000001000001000001000001000001000001000001000001000001000001000001000001000001000001000001000001000001000001000001000001000001000001000001100000000001000001000001000001000001000001000001000001000001000001000001000001000001000001000001000001000001000001000001000001000001000001000001100000000001000001000001000001000001000001000001000001000001000001000001000001000001000001000001000001000001000001000001000001000001000001000001100000000001000001000001000001000001000001000001000001000001000001000001000001000001000001000001000001000001000001000001000001000001000001000001100000000001000001000001000001000001000001000001000001000001000001000001000001000001000001000001000001000001000001000001000001000001000001000001100000000001000001000001000001000001000001000001000001000001000001000001000001000001000001000001000001000001000001000001000001000001000001000001100000000001000001000001000001000001000001000001000001000001000001000001000001000001000001000001000001000001000001000001000001000001000001000001100000000001000001000001000001000001000001000001000001000001000001000001000001000001000001000001000001000001000001000001000001000001000001000001100000000001000001000001000001000001000001000001000001000001000001000001000001000001000001000001000001000001000001000001000001000001000001000001100000000001000001000001000001000001000001000001000001000001000001000001000001000001000001000001000001000001000001000001000001000001000001000001100000000001000001000001000001000001000001000001000001000001000001000001000001000001000001000001000001000001000001000001000001000001000001000001100000000001000001000001000001000001000001000001000001000001000001000001000001000001000001000001000001000001000001000001000001000001000001000001100000000001000001000001000001000001000001000001000001000001000001000001000001000001000001000001000001000001000001000001000001000001000001000001100000000001000001000001000001000001000001000001000001000001000001000001000001000001000001000001000001000001000001000001000001000001000001000001100000000001000001000001000001000001000001000001000001000001000001000001000001000001000001000001000001000001000001000001000001000001000001000001100000000001000001000001000001000001000001000001000001000001000001000001000001000001000001000001000001000001000001000001000001000001000001000001100000000001000001000001000001000001000001000001000001000001000001000001000001000001000001000001000001000001000001000001000001000001000001000001100000000001000001000001000001000001000001000001000001000001000001000001000001000001000001000001000001000001000001000001000001000001000001000001100000000001000001000001000001000001000001000001000001000001000001000001000001000001000001000001000001000001000001000001000001000001000001000001100000000001000001000001000001000001000001000001000001000001000001000001000001000001000001000001000001000001000001000001000001000001000001000001100000000001000001000001000001000001000001000001000001000001000001000001000001000001000001000001000001000001000001000001000001000001000001000001100000, 516090500000500000500000500000500000500000500000500000500000500000500000500000500000500000500000500000500000500000500000500000500000500000500000516090500000500000500000500000500000500000500000500000500000500000500000500000500000500000500000500000500000500000500000500000500000500000500000516090500000500000500000500000500000500000500000500000500000500000500000500000500000500000500000500000500000500000500000500000500000500000500000516090500000500000500000500000500000500000500000500000500000500000500000500000500000500000500000500000500000500000500000500000500000500000500000516090500000500000500000500000500000500000500000500000500000500000500000500000500000500000500000500000500000500000500000500000500000500000500000516090500000500000500000500000500000500000500000500000500000500000500000500000500000500000500000500000500000500000500000500000500000500000500000516090500000500000500000500000500000500000500000500000500000500000500000500000500000500000500000500000500000500000500000500000500000500000500000516090500000500000500000500000500000500000500000500000500000500000500000500000500000500000500000500000500000500000500000500000500000500000500000516090500000500000500000500000500000500000500000500000500000500000500000500000500000500000500000500000500000500000500000500000500000500000500000516090500000500000500000500000500000500000500000500000500000500000500000500000500000500000500000500000500000500000500000500000500000500000500000516090500000500000500000500000500000500000500000500000500000500000500000500000500000500000500000500000500000500000500000500000500000500000500000516090500000500000500000500000500000500000500000500000500000500000500000500000500000500000500000500000500000500000500000500000500000500000500000516090500000500000500000500000500000500000500000500000500000500000500000500000500000500000500000500000500000500000500000500000500000500000500000516090500000500000500000500000500000500000500000500000500000500000500000500000500000500000500000500000500000500000500000500000500000500000500000516090500000500000500000500000500000500000500000500000500000500000500000500000500000500000500000500000500000500000500000500000500000500000500000516090500000500000500000500000500000500000500000500000500000500000500000500000500000500000500000500000500000500000500000500000500000500000500000516090500000500000500000500000500000500000500000500000500000500000500000500000500000500000500000500000500000500000500000500000500000500000500000516090500000500000500000500000500000500000500000500000500000500000500000500000500000500000500000500000500000500000500000500000500000500000500000516090500000500000500000500000500000500000500000500000500000500000500000500000500000500000500000500000500000500000500000500000500000500000500000516090500000500000500000500000500000500000500000500000500000500000500000500000500000500000500000500000500000500000500000500000500000500000500000516090500000500000500000500000500000500000500000500000500000500000500000500000500000500000500000500000500000500000500000500000500000500000500000516090500000500000500000500000500000500000500000500000500000500000500000500000500000500000500000500000500000500000500000500000500000500000500000516090⟩

def se3Cert24 : Cert := ⟨313064207348209372310281157816154563312632313339210274157081310769312528211528206264312413156073156698204998155614310286313661211088207542313064000000311610156706310407310975312414312785155358153169210171156836211941306390313557210512205580209353309458206062202498207089157319158453207348311610000000207290205756313479153466156699210570313838311588210081157709209513310743312033310617154360206214158397157822312417312076207868209372156706207290000000205548312844155733312573210142208683157076210963312955307755207490312513313070155408313767313848150880155681209062313188310281310407205756205548000000160229155719310797312248211392312446313566156831206247209942158331313605307738216418308184155784157708213732209690157816310975313479312844160229000000312372314005313198157814209522311533210699155317311840210365208270211846156232211182212232209266160026312164154563312414153466155733155719312372000000310163313072312993209219310883209025310978157278210448209442204510306389204128206739211229312212157468312632312785156699312573310797314005310163000000157482313356211656158713208372158804160882211975214078208828158208213318211411211539313030311312313339155358210570210142312248313198313072157482000000207443313281312137313406206271210707157753157320158308213845308135156581312869207298209900210274153169313838208683211392157814312993313356207443000000313350206512312567204551312337312147153664311723207119156194156091157115310480207241157081210171311588157076312446209522209219211656313281313350000000160470210080163508155910313373212607207840312022312642307931209531156775313829310769156836210081210963313566311533310883158713312137206512160470000000156799217259212704311967307177313417205934155280308674157055209941205573312528211941157709312955156831210699209025208372313406312567210080156799000000159461313921207985310841312069309866206517213919313819158543156240211528306390209513307755206247155317310978158804206271204551163508217259159461000000212191313390158128310429311380310154156890308434214866312697206264313557310743207490209942311840157278160882210707312337155910212704313921212191000000159041158694309604217089306938310289158886312674210068312413210512312033312513158331210365210448211975157753312147313373311967207985313390159041000000209699213370165024306511314071210750156628157603156073205580310617313070313605208270209442214078157320153664212607307177310841158128158694209699000000312745306280200944212150310765311127154605156698209353154360155408307738211846204510208828158308311723207840313417312069310429309604213370312745000000158430212947204280311088157723311126204998309458206214313767216418156232306389158208213845207119312022205934309866311380217089165024306280158430000000156794314080158929212488305698155614206062158397313848308184211182204128213318308135156194312642155280206517310154306938306511200944212947156794000000312199213069309877148913310286202498157822150880155784212232206739211411156581156091307931308674213919156890310289314071212150204280314080312199000000205410307386313157313661207089312417155681157708209266211229211539312869157115209531157055313819308434158886210750310765311088158929213069205410000000312274312233211088157319312076209062213732160026312212313030207298310480156775209941158543214866312674156628311127157723212488309877307386312274000000209708207542158453207868313188209690312164157468311312209900207241313829205573156240312697210068157603154605311126305698148913313157312233209708000000, 154563153169153466150880155719155317153466156699155358153169155910155280156240155317155910156628153664154360156232148913150880155681156628148913, 61698, 61715, 99999001153014120013588001248032172033695001168001144013356032513001231001171013038014411001175032983032691014757033199001248001134013149014069001153099999001202032687001244001224001175001162033320034360013383032627012935001392001137013295014597013593001277014466015458014189032402031878014120001202099999014136014549001140034218032691013281001128001203013406032221013552001232001188001236033792014425031904032169001175001186013982013588032687014136099999014606001160033143001169013390013768032515013181001157001340014082001171001153033296001130001128035466033167013669001149001248001244014549014606099999031067033150001230001180013073001174001137032629014416013441031934001136001341011853001324033119032222012494013506032172001224001140001160031067099999001176001123001149032173013550001205013248033339001194013333013876012959032909013125012862013616031159001183033695001175034218033143033150001176099999001252001153001156013628001227013678001224032421013312013570014892001392014998014283013114001182032333001168001162032691001169001230001123001252099999032327001144013006031759013849031717030772012926012410013730031991012595013068013036001154001212001144033320013281013390001180001149001153032327099999014095001146001184001142014410013246032201032402031945012466001326032746001160014134013452013356034360001128013768013073032173001156001144014095099999001144014344001170014881001177001184034123001198014181032927032975032497001241014149032513013383001203032515001174013550013628013006001146001144099999030958013406029602033060001143012770013990001188001167001333013547032655001128001231032627013406013181001137001205001227031759001184014344030958099999032644011658012746001190001362001142014501033356001306032525013442014599001171012935032221001157032629013248013678013849001142001170013406032644099999031417001125013951001228001186001263014343012448001129031837032905013038001392013552001340014416033339001224031717014410014881029602011658031417099999012873001143032028001243001210001253032602001315012220001165014411001137001232014082013441001194032421030772013246001177033060012746001125012873099999031608031768001272011698001371001248031679001166013409001175013295001188001171031934013333013312012926032201001184001143001190013951001143031608099999013504012582028938001387001121013235032724032271032983014597001236001153001136013876013570012410032402034123012770001362001228032028031768013504099999001164001396015905012883001231001219033675032691013593033792033296001341012959014892013730031945001198013990001142001186001243001272012582001164099999031889012686014956001220032215001219014757001277014425001130011853032909001392031991012466014181001188014501001263001210011698028938001396031889099999032646001120031660012799001419033199014466031904001128001324013125014998012595001326032927001167033356014343001253001371001387015905012686032646099999001182012656001262036431001248015458032169035466033119012862014283013068032746032975001333001306012448032602001248001121012883014956001120001182099999014644001354001150001134014189001175033167032222013616013114013036001160032497013547032525001129001315031679013235001231001220031660012656014644099999001179001181013149032402001186013669012494031159001182001154014134001241032655013442031837012220001166032724001219032215012799001262001354001179099999013501014069031878013982001149013506001183032333001212013452014149001128014599032905001165013409032271033675001219001419036431001150001181013501099999, 100000001159014147013615001254032212033736001173001150013382032553001237001176013064014439001180033023032731014785033239001254001139013175014096001159100000001207032727001249001229001180001168033360034400013409032667012961001398001142013321014625013620001283014494015486014216032442031918014147001207100000014163014577001145034258032731013307001133001208013432032261013578001237001193001242033832014452031944032209001180001192014009013615032727014163100000014634001166033183001175013416013794032555013207001162001346014109001177001158033336001136001133035507033207013695001155001254001249014577014634100000031106033190001236001186013098001179001142032669014443013467031974001141001347011878001330033159032262012519013532032212001229001145001166031106100000001182001128001154032213013576001210013274033379001200013359013903012984032949013151012888013642031199001189033736001180034258033183033190001182100000001258001158001161013654001233013705001229032461013338013597014920001398015026014310013139001187032373001173001168032731001175001236001128001258100000032366001149013032031798013876031756030811012952012435013756032031012620013094013061001160001218001150033360013307013416001186001154001158032366100000014122001152001190001147014437013272032241032441031984012491001332032786001165014161013478013382034400001133013794013098032213001161001149014122100000001149014372001175014908001183001189034164001204014208032967033015032537001247014176032553013409001208032555001179013576013654013032001152001149100000030997013432029640033100001148012795014016001193001173001339013573032695001134001237032667013432013207001142001210001233031798001190014372030997100000032684011682012771001195001368001147014528033396001312032565013468014627001176012961032261001162032669013274013705013876001147001175013432032684100000031456001131013978001234001192001268014370012473001134031876032945013064001398013578001346014443033379001229031756014437014908029640011682031456100000012898001148032067001248001215001258032641001321012245001171014439001142001237014109013467001200032461030811013272001183033100012771001131012898100000031648031807001278011722001377001253031719001172013435001180013321001193001177031974013359013338012952032241001189001148001195013978001148031648100000013530012607028976001394001126013261032764032310033023014625001242001158001141013903013597012435032441034164012795001368001234032067031807013530100000001169001403015934012908001237001224033716032731013620033832033336001347012984014920013756031984001204014016001147001192001248001278012607001169100000031928012711014984001225032255001224014785001283014452001136011878032949001398032031012491014208001193014528001268001215011722028976001403031928100000032686001126031699012824001425033239014494031944001133001330013151015026012620001332032967001173033396014370001258001377001394015934012711032686100000001187012681001268036472001254015486032209035507033159012888014310013094032786033015001339001312012473032641001253001126012908014984001126001187100000014672001360001156001139014216001180033207032262013642013139013061001165032537013573032565001134001321031719013261001237001225031699012681014672100000001185001186013175032442001192013695012519031199001187001160014161001247032695013468031876012245001172032764001224032255012824001268001360001185100000013528014096031918014009001155013532001189032373001218013478014176001134014627032945001171013435032310033716001224001425036472001156001186013528100000, 520706498460502828502858503474493273492821498615503501502873493255503466498556502552502529498662493000493090502408492858498391498574502602503022498460520706498432492978498528503463503548503455492997492700502544493152502704498611498632502609502762502697498637502935502758502676493226493134502828498432520680502998502613498586492727493220502734503561498631502638493231502470503442498674498445492895502423493105493102498555503471502913502858492978502998521136502789498496492836498552502949503036493184502706498474503454502594498585498384492901503473498242492407492977502683503607503474498528502613502789520287493551493012498692503453502696498716503470493229502350502464493457498569498562502521498413493008493299502581502692493273503463498586498496493551520110503489503394498651493226502333498674502432493214498754502211502655502595493295502800502767502429493567498519492821503548492727492836493012503489520939503467498463498346502723498488502759498587493231502570502789502790498570502894502948502774498528493008498615503455493220498552498692503394503467519911493322498567502227493455502369493537493705502234502595502529493506502787502667502403498748498565503501492997502734502949503453498651498463493322520403502853498701503458498627502346502405493386493170493281502445498392493046498625502479502744502873492700503561503036502696493226498346498567502853520964498580502710498498502508503465498614492750498427502490492860492896493130503488503095493255502544498631493184498716502333502723502227498701498580519913493613502249493950493292503347502553502545498851503486503451502484493316498569503466493152502638502706503470498674498488493455503458502710493613520257493222502538502470498748498531498602502325492933498473493253502491502764498556502704493231498474493229502432502759502369498627498498502249493222520230493545498741502420503462503461498739502805502805503447493418493039502552498611502470503454502350493214498587493537502346502508493950502538493545519830502304498884493360498671503352498518493224498716502505503469502529498632503442502594502464498754493231493705502405503465493292502470498741502304519904493581493386498643502411498509498566493488503387502596498662502609498674498585493457502211502570502234493386498614503347498748502420498884493581519718502520502466494112503461503457502218493345493277493000502762498445498384498569502655502789502595493170492750502553498531503462493360493386502520520671503524498631502819502915503470498577492815493090502697492895492901498562502595502790502529493281498427502545498602503461498671498643502466503524520514493422502920502702503452493281498411502408498637502423503473502521493295498570493506502445502490498851502325498739503352502411494112498631493422519758493186498612493504502386503457492858502935493105498242498413502800502894502787498392492860503486492933502805498518498509503461502819502920493186521184503623502869498472492183498391502758493102492407493008502767502948502667493046492896503451498473502805493224498566503457502915502702498612503623520969502720498494498298498574502676498555492977493299502429502774502403498625493130502484493253503447498716493488502218503470503452493504502869502720520237498674498478502602493226503471502683502581493567498528498748502479503488493316502491493418502505503387493345498577493281502386498472498494498674520125502610503022493134502913503607502692498519493008498565502744503095498569502764493039503469502596493277492815498411503457492183498298498478502610521053⟩

def e3Cert24 : ℕ × ℕ × Cert := ⟨157069000000000000156929000000000000157056157073017009000000156965157053026894000000157048000000000000000000000000156929157076023900000000157069000000157015000000156937156977157050157061000000000000015921000000029438156476157076019270000000000000156858000000000000000000000000000000000000157015000000000000000000157075000000000000019784157079157014014913000000005022156963157034156954000000000000000000000000157049157036000000000000000000000000000000000000157063000000157054015592000000000000022977157065156669000000157053157067000000157078157078000000000000000000157070156929156937000000000000000000000000000000156967157043026004157051157076000000000000013199000000157078156668049145156724000000000000038557009321000000156977157075157063000000000000157049157079157071000000005356157010020882000000157027017898000000028876000000024564031099000000000000157039000000157050000000000000000000157049000000156920157067157066000000156972000000156979000000018691000901000000156476000000000000024892157043000000157056157061000000157054156967157079156920000000000000157073027707000000000000000000000000029635040076000000000000036648026138026970157065156999157073000000019784015592157043157071157067000000000000000000157072157040157075000000020960000000000000000000039058156717000000157063000000012637017009000000157079000000026004000000157066157073000000000000157074000000157055000000157047157038000000157020000000000000000000000000156944000000000000015921157014000000157051005356000000027707157072157074000000000000014895000000000000157074033118000000157034157056156693005642000000157078156965000000014913022977157076157010156972000000157040000000000000000000000000052014033623157031156592157075000000000000156780000000013176000000157053029438000000157065000000020882000000000000157075157055014895000000000000000000157079000000156971157036156894000000039386157077000000000000026894156476005022156669000000000000156979000000000000000000000000052014000000000000030873157075000000156939157002156919000000156752043339157059000000157076156963000000013199157027000000000000020960157047000000033623157079030873000000000000000000156873051448156559156931000000157057014757157048019270157034157053000000017898018691029635000000157038157074157031000000157075000000000000009477036892000000156495157079021302000000000000000000000000156954157067157078000000000901040076000000000000033118156592156971000000000000009477000000157059156460000000030644156965156987000000000000000000000000000000156668028876000000000000000000157020000000157075157036156939156873036892157059000000000000034853000000156987000000156988000000156858000000157078049145000000156476000000039058000000157034000000156894157002051448000000156460000000000000000000157079000000032494156365000000000000000000157078156724024564000000036648156717000000157056000000000000156919156559156495000000034853000000000000157042035455156896000000156929000000000000000000000000031099000000026138000000000000156693156780039386000000156931157079030644000000157079157042000000000000156621157070157076000000157049000000000000000000024892026970157063000000005642000000157077156752000000021302156965156987000000035455000000000000157044157042023900000000157036000000038557000000157043157065000000156944000000013176000000043339157057000000156987000000032494156896156621157044000000009639000000000000000000157070009321157039000000156999012637000000157078000000000000157059014757000000000000156988156365000000157070157042009639000000, 0, 313064207348209372310281157816154563312632313339210274157081310769312528211528206264312413156073156698204998155614310286313661211088207542313064000000311610156706310407310975312414312785155358153169210171156836211941306390313557210512205580209353309458206062202498207089157319158453207348311610000000207290205756313479153466156699210570313838311588210081157709209513310743312033310617154360206214158397157822312417312076207868209372156706207290000000205548312844155733312573210142208683157076210963312955307755207490312513313070155408313767313848150880155681209062313188310281310407205756205548000000160229155719310797312248211392312446313566156831206247209942158331313605307738216418308184155784157708213732209690157816310975313479312844160229000000312372314005313198157814209522311533210699155317311840210365208270211846156232211182212232209266160026312164154563312414153466155733155719312372000000310163313072312993209219310883209025310978157278210448209442204510306389204128206739211229312212157468312632312785156699312573310797314005310163000000157482313356211656158713208372158804160882211975214078208828158208213318211411211539313030311312313339155358210570210142312248313198313072157482000000207443313281312137313406206271210707157753157320158308213845308135156581312869207298209900210274153169313838208683211392157814312993313356207443000000313350206512312567204551312337312147153664311723207119156194156091157115310480207241157081210171311588157076312446209522209219211656313281313350000000160470210080163508155910313373212607207840312022312642307931209531156775313829310769156836210081210963313566311533310883158713312137206512160470000000156799217259212704311967307177313417205934155280308674157055209941205573312528211941157709312955156831210699209025208372313406312567210080156799000000159461313921207985310841312069309866206517213919313819158543156240211528306390209513307755206247155317310978158804206271204551163508217259159461000000212191313390158128310429311380310154156890308434214866312697206264313557310743207490209942311840157278160882210707312337155910212704313921212191000000159041158694309604217089306938310289158886312674210068312413210512312033312513158331210365210448211975157753312147313373311967207985313390159041000000209699213370165024306511314071210750156628157603156073205580310617313070313605208270209442214078157320153664212607307177310841158128158694209699000000312745306280200944212150310765311127154605156698209353154360155408307738211846204510208828158308311723207840313417312069310429309604213370312745000000158430212947204280311088157723311126204998309458206214313767216418156232306389158208213845207119312022205934309866311380217089165024306280158430000000156794314080158929212488305698155614206062158397313848308184211182204128213318308135156194312642155280206517310154306938306511200944212947156794000000312199213069309877148913310286202498157822150880155784212232206739211411156581156091307931308674213919156890310289314071212150204280314080312199000000205410307386313157313661207089312417155681157708209266211229211539312869157115209531157055313819308434158886210750310765311088158929213069205410000000312274312233211088157319312076209062213732160026312212313030207298310480156775209941158543214866312674156628311127157723212488309877307386312274000000209708207542158453207868313188209690312164157468311312209900207241313829205573156240312697210068157603154605311126305698148913313157312233209708000000, 0, 35, 40, 24302000000000000000000000000000000000000000000000000000000000000000000000000000000000000000000000000000000000000000000000000000000000000000000000000024302000000000000000000000000000000000000000000000000000000000000000000000000000000000000000000000000000000000000000000000000000000000000000000000000024302000000000000000000000000000000000000000000000000000000000000000000000000000000000000000000000000000000000000000000000000000000000000000000000000024302000000000000000000000000000000000000000000000000000000000000000000000000000000000000000000000000000000000000000000000000000000000000000000000000024302000000000000000000000000000000000000000000000000000000000000000000000000000000000000000000000000000000000000000000000000000000000000000000000000024302000000000000000000000000000000000000000000000000000000000000000000000000000000000000000000000000000000000000000000000000000000000000000000000000024302000000000000000000000000000000000000000000000000000000000000000000000000000000000000000000000000000000000000000000000000000000000000000000000000024302000000000000000000000000000000000000000000000000000000000000000000000000000000000000000000000000000000000000000000000000000000000000000000000000024302000000000000000000000000000000000000000000000000000000000000000000000000000000000000000000000000000000000000000000000000000000000000000000000000024302000000000000000000000000000000000000000000000000000000000000000000000000000000000000000000000000000000000000000000000000000000000000000000000000024302000000000000000000000000000000000000000000000000000000000000000000000000000000000000000000000000000000000000000000000000000000000000000000000000024302000000000000000000000000000000000000000000000000000000000000000000000000000000000000000000000000000000000000000000000000000000000000000000000000024302000000000000000000000000000000000000000000000000000000000000000000000000000000000000000000000000000000000000000000000000000000000000000000000000024302000000000000000000000000000000000000000000000000000000000000000000000000000000000000000000000000000000000000000000000000000000000000000000000000024302000000000000000000000000000000000000000000000000000000000000000000000000000000000000000000000000000000000000000000000000000000000000000000000000024302000000000000000000000000000000000000000000000000000000000000000000000000000000000000000000000000000000000000000000000000000000000000000000000000024302000000000000000000000000000000000000000000000000000000000000000000000000000000000000000000000000000000000000000000000000000000000000000000000000024302000000000000000000000000000000000000000000000000000000000000000000000000000000000000000000000000000000000000000000000000000000000000000000000000024302000000000000000000000000000000000000000000000000000000000000000000000000000000000000000000000000000000000000000000000000000000000000000000000000024302000000000000000000000000000000000000000000000000000000000000000000000000000000000000000000000000000000000000000000000000000000000000000000000000024302000000000000000000000000000000000000000000000000000000000000000000000000000000000000000000000000000000000000000000000000000000000000000000000000024302000000000000000000000000000000000000000000000000000000000000000000000000000000000000000000000000000000000000000000000000000000000000000000000000024302000000000000000000000000000000000000000000000000000000000000000000000000000000000000000000000000000000000000000000000000000000000000000000000000024302, 100000000001000001000001000001000001000001000001000001000001000001000001000001000001000001000001000001000001000001000001000001000001000001000001000001100000000001000001000001000001000001000001000001000001000001000001000001000001000001000001000001000001000001000001000001000001000001000001000001000001100000000001000001000001000001000001000001000001000001000001000001000001000001000001000001000001000001000001000001000001000001000001000001000001000001100000000001000001000001000001000001000001000001000001000001000001000001000001000001000001000001000001000001000001000001000001000001000001000001000001100000000001000001000001000001000001000001000001000001000001000001000001000001000001000001000001000001000001000001000001000001000001000001000001000001100000000001000001000001000001000001000001000001000001000001000001000001000001000001000001000001000001000001000001000001000001000001000001000001000001100000000001000001000001000001000001000001000001000001000001000001000001000001000001000001000001000001000001000001000001000001000001000001000001000001100000000001000001000001000001000001000001000001000001000001000001000001000001000001000001000001000001000001000001000001000001000001000001000001000001100000000001000001000001000001000001000001000001000001000001000001000001000001000001000001000001000001000001000001000001000001000001000001000001000001100000000001000001000001000001000001000001000001000001000001000001000001000001000001000001000001000001000001000001000001000001000001000001000001000001100000000001000001000001000001000001000001000001000001000001000001000001000001000001000001000001000001000001000001000001000001000001000001000001000001100000000001000001000001000001000001000001000001000001000001000001000001000001000001000001000001000001000001000001000001000001000001000001000001000001100000000001000001000001000001000001000001000001000001000001000001000001000001000001000001000001000001000001000001000001000001000001000001000001000001100000000001000001000001000001000001000001000001000001000001000001000001000001000001000001000001000001000001000001000001000001000001000001000001000001100000000001000001000001000001000001000001000001000001000001000001000001000001000001000001000001000001000001000001000001000001000001000001000001000001100000000001000001000001000001000001000001000001000001000001000001000001000001000001000001000001000001000001000001000001000001000001000001000001000001100000000001000001000001000001000001000001000001000001000001000001000001000001000001000001000001000001000001000001000001000001000001000001000001000001100000000001000001000001000001000001000001000001000001000001000001000001000001000001000001000001000001000001000001000001000001000001000001000001000001100000000001000001000001000001000001000001000001000001000001000001000001000001000001000001000001000001000001000001000001000001000001000001000001000001100000000001000001000001000001000001000001000001000001000001000001000001000001000001000001000001000001000001000001000001000001000001000001000001000001100000000001000001000001000001000001000001000001000001000001000001000001000001000001000001000001000001000001000001000001000001000001000001000001000001100000000001000001000001000001000001000001000001000001000001000001000001000001000001000001000001000001000001000001000001000001000001000001000001000001100000000001000001000001000001000001000001000001000001000001000001000001000001000001000001000001000001000001000001000001000001000001000001000001000001100000, 516090500000500000500000500000500000500000500000500000500000500000500000500000500000500000500000500000500000500000500000500000500000500000500000500000516090500000500000500000500000500000500000500000500000500000500000500000500000500000500000500000500000500000500000500000500000500000500000500000500000516090500000500000500000500000500000500000500000500000500000500000500000500000500000500000500000500000500000500000500000500000500000500000500000500000516090500000500000500000500000500000500000500000500000500000500000500000500000500000500000500000500000500000500000500000500000500000500000500000500000516090500000500000500000500000500000500000500000500000500000500000500000500000500000500000500000500000500000500000500000500000500000500000500000500000516090500000500000500000500000500000500000500000500000500000500000500000500000500000500000500000500000500000500000500000500000500000500000500000500000516090500000500000500000500000500000500000500000500000500000500000500000500000500000500000500000500000500000500000500000500000500000500000500000500000516090500000500000500000500000500000500000500000500000500000500000500000500000500000500000500000500000500000500000500000500000500000500000500000500000516090500000500000500000500000500000500000500000500000500000500000500000500000500000500000500000500000500000500000500000500000500000500000500000500000516090500000500000500000500000500000500000500000500000500000500000500000500000500000500000500000500000500000500000500000500000500000500000500000500000516090500000500000500000500000500000500000500000500000500000500000500000500000500000500000500000500000500000500000500000500000500000500000500000500000516090500000500000500000500000500000500000500000500000500000500000500000500000500000500000500000500000500000500000500000500000500000500000500000500000516090500000500000500000500000500000500000500000500000500000500000500000500000500000500000500000500000500000500000500000500000500000500000500000500000516090500000500000500000500000500000500000500000500000500000500000500000500000500000500000500000500000500000500000500000500000500000500000500000500000516090500000500000500000500000500000500000500000500000500000500000500000500000500000500000500000500000500000500000500000500000500000500000500000500000516090500000500000500000500000500000500000500000500000500000500000500000500000500000500000500000500000500000500000500000500000500000500000500000500000516090500000500000500000500000500000500000500000500000500000500000500000500000500000500000500000500000500000500000500000500000500000500000500000500000516090500000500000500000500000500000500000500000500000500000500000500000500000500000500000500000500000500000500000500000500000500000500000500000500000516090500000500000500000500000500000500000500000500000500000500000500000500000500000500000500000500000500000500000500000500000500000500000500000500000516090500000500000500000500000500000500000500000500000500000500000500000500000500000500000500000500000500000500000500000500000500000500000500000500000516090500000500000500000500000500000500000500000500000500000500000500000500000500000500000500000500000500000500000500000500000500000500000500000500000516090500000500000500000500000500000500000500000500000500000500000500000500000500000500000500000500000500000500000500000500000500000500000500000500000516090500000500000500000500000500000500000500000500000500000500000500000500000500000500000500000500000500000500000500000500000500000500000500000500000516090⟩

def se3Cert (n : ℕ) : Cert := match n with
  | 2 => se3Cert2
  | 3 => se3Cert3
  | 4 => se3Cert4
  | 5 => se3Cert5
  | 6 => se3Cert6
  | 7 => se3Cert7
  | 8 => se3Cert8
  | 9 => se3Cert9
  | 10 => se3Cert10
  | 11 => se3Cert11
  | 12 => se3Cert12
  | 13 => se3Cert13
  | 14 => se3Cert14
  | 15 => se3Cert15
  | 16 => se3Cert16
  | 17 => se3Cert17
  | 18 => se3Cert18
  | 19 => se3Cert19
  | 20 => se3Cert20
  | 21 => se3Cert21
  | 22 => se3Cert22
  | 23 => se3Cert23
  | _ => se3Cert24

def e3Cert (n : ℕ) : ℕ × ℕ × Cert := match n with
  | 2 => e3Cert2
  | 3 => e3Cert3
  | 4 => e3Cert4
  | 5 => e3Cert5
  | 6 => e3Cert6
  | 7 => e3Cert7
  | 8 => e3Cert8
  | 9 => e3Cert9
  | 10 => e3Cert10
  | 11 => e3Cert11
  | 12 => e3Cert12
  | 13 => e3Cert13
  | 14 => e3Cert14
  | 15 => e3Cert15
  | 16 => e3Cert16
  | 17 => e3Cert17
  | 18 => e3Cert18
  | 19 => e3Cert19
  | 20 => e3Cert20
  | 21 => e3Cert21
  | 22 => e3Cert22
  | 23 => e3Cert23
  | _ => e3Cert24

/-- the shipped matrices of size `n`, as scaled integers. -/
def mats (n : ℕ) : List Z9 := (matrixCache.lookup n).getD []

/-- row `i` of the grid of size `n` as a scaled quaternion. -/
def quatRow (n i : ℕ) : Z4 := raw (10 ^ 11) ((mats n).getD i ⟨0, 0, 0, 0, 0, 0, 0, 0, 0⟩)

/-- inner product of the rows `(1, M_i)` and `(1, M_j)` of the O(3) grid, scaled by `10^22`. -/
def rowDot (n i j : ℕ) : ℤ :=
  let p := (mats n).getD i ⟨0, 0, 0, 0, 0, 0, 0, 0, 0⟩
  let q := (mats n).getD j ⟨0, 0, 0, 0, 0, 0, 0, 0, 0⟩
  10 ^ 22 + (p.a * q.a + p.b * q.b + p.c * q.c + p.d * q.d + p.e * q.e + p.f * q.f + p.g * q.g + p.h * q.h + p.i * q.i)

/-- all checks for the grid of size `n`. -/
def check (n : ℕ) : Bool := decide ((mats n).length = n) && checkMatrix n (se3Cert n) (quatRow n) && checkWidth n (se3Cert n) &&
  checkMatrix n (e3Cert n).2.2 (quatRow n) &&
  checkRows n (e3Cert n).1 (e3Cert n).2.1 (e3Cert n).2.2.wLo (e3Cert n).2.2.wHi (rowDot n) (10 ^ 22)

theorem check2 : check 2 = true := by decide +kernel
theorem check3 : check 3 = true := by decide +kernel
theorem check4 : check 4 = true := by decide +kernel
theorem check5 : check 5 = true := by decide +kernel
theorem check6 : check 6 = true := by decide +kernel
theorem check7 : check 7 = true := by decide +kernel
theorem check8 : check 8 = true := by decide +kernel
theorem check9 : check 9 = true := by decide +kernel
theorem check10 : check 10 = true := by decide +kernel
theorem check11 : check 11 = true := by decide +kernel
theorem check12 : check 12 = true := by decide +kernel
theorem check13 : check 13 = true := by decide +kernel
theorem check14 : check 14 = true := by decide +kernel
theorem check15 : check 15 = true := by decide +kernel
theorem check16 : check 16 = true := by decide +kernel
theorem check17 : check 17 = true := by decide +kernel
theorem check18 : check 18 = true := by decide +kernel
theorem check19 : check 19 = true := by decide +kernel
theorem check20 : check 20 = true := by decide +kernel
theorem check21 : check 21 = true := by decide +kernel
theorem check22 : check 22 = true := by decide +kernel
theorem check23 : check 23 = true := by decide +kernel
theorem check24 : check 24 = true := by decide +kernel

theorem check_true (n : ℕ) (h2 : 2 ≤ n) (h24 : n ≤ 24) : check n = true := by
  interval_cases n
  · exact check2
  · exact check3
  · exact check4
  · exact check5
  · exact check6
  · exact check7
  · exact check8
  · exact check9
  · exact check10
  · exact check11
  · exact check12
  · exact check13
  · exact check14
  · exact check15
  · exact check16
  · exact check17
  · exact check18
  · exact check19
  · exact check20
  · exact check21
  · exact check22
  · exact check23
  · exact check24

end GConv.RBFCert
