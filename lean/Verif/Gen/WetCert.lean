import Verif.Model.WetTables

/-!
# Hints for the checks of the WET tables, generated

GENERATED by tools/gen_wet_cert.py; do not edit.  Nothing in this file is trusted: the numbers are
verified in `Verif.Lemmas.WetCert`.  The images of the coefficients of a sector under a symmetry are
packed into one number, 12 bits each: position in the image sector, whether complex conjugated,
whether with opposite sign.
-/

set_option autoImplicit false

namespace Verif.WetTab

/-- a sector: coefficients, QED and QCD matrices, masses of the dipole coefficients (4 bits each),
codes of the coefficients (20 bits each) -/
structure Sec where
  coefs : List Coef
  rE : Rows
  rS : Rows
  ms : ℕ
  cn : ℕ

/-- the sectors in the order of `coefTable` -/
def secs : List Sec :=
  [
    ⟨c_sbsb, adm_e_I, adm_s_I, 0, 435316563196808787291610941008678029767329790260⟩,
    ⟨c_dbdb, adm_e_I, adm_s_I, 0, 433908827313629985634709221453919501455284581698⟩,
    ⟨c_sdsd, adm_e_I, adm_s_I, 0, 433768053725312105469019048345637436166645298397⟩,
    ⟨c_cucu, adm_e_Iu, adm_s_Iu, 0, 419830074683874449047851229387741972388259388397⟩,
    ⟨c_dbsb, adm_e_IV, adm_s_IV, 0, 477103125996009663848356054211830598910957313631708815635788⟩,
    ⟨c_sbuc, adm_e_III, adm_s_III, 0, 522648407494239006702833553597062094581263464645481499220604934648419858443193640491290829290290487935905147359388046904⟩,
    ⟨c_sbcu, adm_e_III, adm_s_III, 0, 522870043567724913356479536189466673176795931283883631147385635033184376444300993550524357416650974803786242483466344001⟩,
    ⟨c_dbuc, adm_e_III, adm_s_III, 0, 522402144932026092982549695648767773919419236147576218195801161349664416955640932674726597289797592590517453397549979182⟩,
    ⟨c_dbcu, adm_e_III, adm_s_III, 0, 522845417078997906289841660833576913626464139392818843774205400707523280022679351345811698443043384229593899895437203008⟩,
    ⟨c_sduc, adm_e_III, adm_s_III, 0, 522599154516784992569557802885284341366622914051077390265117768575785132052755388267442976390068698552780580960536172086⟩,
    ⟨c_sdcu, adm_e_III, adm_s_III, 0, 522377518443299085915911820292879762771090447412675258338337068191020614051648035208209448263708211684899485836457874989⟩,
    ⟨c_sbsd, adm_e_IV, adm_s_IV, 0, 476963668768794230115384918603660839209904095847109290702065⟩,
    ⟨c_dbds, adm_e_IV, adm_s_IV, 0, 476934551325747840777019615615873716416122405771900575102174⟩,
    ⟨c_sb, adm_e_sb, adm_s_sb, 62022624735302861422070228841068199425606623141462746198629505473051036128270225136955638682977207381542411267534705691242435049129246720, 12769699028002603034157477506159238116683745093919873553549308393928982461351274844155566762190469963084689185863120618348323684866272203039794788284345573180379273443621104856993513041587249144228643073269338353404537902113070565049376530591344016977683998410718204277537765787786042289455812153760262959167625911072665354768708539306040700314891431941563247605618407310133441884985786724651306288728492384489454170515989975375615356922264810224872560782100627948726923744382837730346330814399185991175861183547547348207929179877651469473927295970354302353928015607368460623255492629676536627609025891534892552496163946618075737029740254545978192522841240756147313014240693181459281028⟩,
    ⟨c_db, adm_e_db, adm_s_db, 62022624735302861422070228841068199425606623141462746198629505473051036128270225136955638682977207381542411267534705691242435049129246720, 12769486314850954214380342658038653462881503083392042575085292941202776318485173257771183302298918545455581869346478531165147510463592612081375951340733530209676323551597426926344858099066738858980798857457729519403699480656076669413323023473705973367919563309861363728175105222865679515400668629109310820116161898049952939645171513281106978836508436566193315562431271533394679276621420609363191815011465544896485214822953672202655554705487536271931117963599323080403553734878386867751488928098054363808627359852806245261854966037175978400869146039400182913424782822612239667374688805446685806299560385123440013685297932583102636253192714914847737709098807889253436445130183948980532346⟩,
    ⟨c_sd, adm_e_sd, adm_s_sd, 37213574841181716853242137304640919655363973884877647719177703283830621676962135082173383209786324428925446760520823414745461029477548032, 12767359203417322371007353447903785182983843658659381238306129840454220307216510384094541361101438230861322723027647363513845993127786993873582529999995154385792319490893581733152958424575263543634836003706995251604845468551232734653483859742604168710403349338534849978676858735336395330574143535970011584705858303211763771845932471751328130141995366793513008061717480572707582146185552693722820772968803323552462901615591165032664255369767856718623962720910047323755528590669680195011946858609895827403105348765390424420255461253389517095067813094557237329228757462573565713447942328927922980598066369177876407652803989825125787247112173208788265473105628609175453345601459179051365497⟩,
    ⟨c_cu, adm_e_cu, adm_s_cu, 49618099788242289137656183072854559540485298513170196958903604378440828902616180109564510946381765905233929014027764552993948039303397376, 10640245944071264961803635604918407896505142356308598526975354511726700723069805825866019408491409912460104213502826951405168917398768594098150493327162443954153139222653806956134354024971939414882263100907421435181111163291041246505790722595902162939951278124199269075535869327819581613792294803157057509429960620292371218463152478594054448785429306486157634358113707831537217926151557825951869399047608849757321956324542859382140570227543798895749142454617051752381577505815704416733774196789951598417563159604801495945330807368382538210521327981610496957495872143346887009131305799412104930929208089167332193464279226540280735503192785187343348193822065075503051188566511621843785260⟩,
    ⟨c_sbemu, adm_e_Vb, adm_s_Vb, 0, 722149484364367186775636781675804948163328921846245026280056⟩,
    ⟨c_sbmue, adm_e_Vb, adm_s_Vb, 0, 722163276837388507055521270276911201275393635938040318898817⟩,
    ⟨c_sbetau, adm_e_Vb, adm_s_Vb, 0, 722302734064604078774221729510929602989395490157556067840732⟩,
    ⟨c_sbtaue, adm_e_Vb, adm_s_Vb, 0, 722316526537625399054118181163997920344316338512893883560677⟩,
    ⟨c_sbmutau, adm_e_Vb, adm_s_Vb, 0, 723835231066972998760071195312435208979176175557686584260292⟩,
    ⟨c_sbtaumu, adm_e_Vb, adm_s_Vb, 0, 723849023539994319039955683913541462091240889649481876879053⟩,
    ⟨c_dbemu, adm_e_Vb, adm_s_Vb, 0, 722134159394343497574449191944804554722114598312669404574318⟩,
    ⟨c_dbmue, adm_e_Vb, adm_s_Vb, 0, 722161744340386138134206206095054996703387892232717466710656⟩,
    ⟨c_dbetau, adm_e_Vb, adm_s_Vb, 0, 722287409094580389573034139779929209548181166623980446134994⟩,
    ⟨c_dbtaue, adm_e_Vb, adm_s_Vb, 0, 722314994040623030132803116982141715772310594807571031372516⟩,
    ⟨c_dbmutau, adm_e_Vb, adm_s_Vb, 0, 723819906096949309558883605581434815537961852024110962554554⟩,
    ⟨c_dbtaumu, adm_e_Vb, adm_s_Vb, 0, 723847491042991950118640619731685257519235145944159024690892⟩,
    ⟨c_sdemu, adm_e_Vb, adm_s_Vb, 0, 722146419370362448934214921560261027547786995053394155123318⟩,
    ⟨c_sdmue, adm_e_Vb, adm_s_Vb, 0, 722132626897341128654330432959154774435722280961598862504557⟩,
    ⟨c_sdetau, adm_e_Vb, adm_s_Vb, 0, 722299669070599340932811832447347746616709697628247719785178⟩,
    ⟨c_sdtaue, adm_e_Vb, adm_s_Vb, 0, 722285876597578020652915380794279429261788849272909904065233⟩,
    ⟨c_sdmutau, adm_e_Vb, adm_s_Vb, 0, 723832166072968260918649335196891288363634248764835713103554⟩,
    ⟨c_sdtaumu, adm_e_Vb, adm_s_Vb, 0, 723818373599946940638764846595785035251569534673040420484793⟩,
    ⟨c_cuemu, adm_e_Vb_c, adm_s_Vb_c, 0, 860070886513298403829059227015032678299103758800460994183318⟩,
    ⟨c_cumue, adm_e_Vb_c, adm_s_Vb_c, 0, 860057094040277083549174738413926425187039044708665701564557⟩,
    ⟨c_cuetau, adm_e_Vb_c, adm_s_Vb_c, 0, 860086211614857365830523517189296511970062117489743265661178⟩,
    ⟨c_cutaue, adm_e_Vb_c, adm_s_Vb_c, 0, 860058626681968252550913803464945906075344834745848320622833⟩,
    ⟨c_cumutau, adm_e_Vb_c, adm_s_Vb_c, 0, 860087745571901262848188930026506025799582451496489904637154⟩,
    ⟨c_cutaumu, adm_e_Vb_c, adm_s_Vb_c, 0, 860073953098879942568304441425399772687517737404694612018393⟩,
    ⟨c_mutau, adm_e_mutau, adm_s_mutau, 67635960151730983333131985747967634253662036508439289571903100857469691593704539072495616, 639057703551901538111546957743573837236771514064040211833385669164012425165068241837593295859371673686265865266379545702919181487969034284792432671480312224266997633728538816833029191542865858912855886039042368331497867368455735175488101632894433953809117609694174043799434240998198296059914421136557362878479207814183568704380647094374590280561765389556271009857693753398067400746421245380712651414050086566531245106680839333251822475669518008⟩,
    ⟨c_mue, adm_e_mue, adm_s_mue, 59181465132764610416490487529471679971954281944884378375415213250285980144491471688433664, 638706800804339530455128098010598070511593168933839390715133092991860178925241473792323918667471701988736298802030920689470455766817448271413128829358767206927565327838542952142902128001675278349457187740342282384693861659543678228046213844711041488027696568938792931851653754401379061137001115537602287329638568348425988895521553538379041846024134865498842154499580138981298625861321289414606606421532506154060985388901974423209279381203694188⟩,
    ⟨c_taue, adm_e_taue, adm_s_taue, 67635960151730983333131985747967634253662036508439289571903100857469691593704539072495616, 639025803028321133674013124741200531041784937394531277676012220525891663693078666925561249833046339906876477211130230652289318799009744525367066737160349742013765240627496837146106890661260037253178099620541505726695951772637673414561296681585886941891003661405913727181022821353083908756372049953095149867410268559270305772339272376660522036073251284785851095207383371215634354718814619266600933073924737590753486398223889701252102452499559120⟩,
    ⟨c_tauetaue, adm_e_Ie, adm_s_Ie, 0, 811569417174408499157925210738⟩,
    ⟨c_taumutaumu, adm_e_Ie, adm_s_Ie, 0, 812790433416671104784143855204⟩,
    ⟨c_muemue, adm_e_Ie, adm_s_Ie, 0, 811447315550182238594254875149⟩,
    ⟨c_muemutau, adm_e_IVe, adm_s_IVe, 0, 850889534702878274707483061041605153⟩,
    ⟨c_etauemu, adm_e_IVe, adm_s_IVe, 0, 850865448121667764452164308159539726⟩,
    ⟨c_tauetaumu, adm_e_IVe, adm_s_IVe, 0, 851004890897827741942059203474860668⟩,
    ⟨c_nunununu, adm_e_inv, adm_s_inv, 0, 1764540818527273063365629093073243194814871845631609657274529444963215980725981682868367768712706564744343984111065921822024856⟩,
    ⟨c_nunumue, adm_e_inv, adm_s_inv, 0, 1127293718374040259119707361259484631433173779238013378421253849214820556040115593504521524261555664349165513⟩,
    ⟨c_nunumutau, adm_e_inv, adm_s_inv, 0, 1127318355589700094768570613088456982201884775121033659773162658981109905203767464560839003401323666118932436⟩,
    ⟨c_nunutaue, adm_e_inv, adm_s_inv, 0, 1127295958140142309320164938547620464981498535915252238776045538517044457760945378775989896025807605356427210⟩,
    ⟨c_dF0, adm_e_dF0, adm_s_dF0, 21733751492642274106075237855255994573142095853855756433216836082970692716248860034736435684939141344007301508914891769325882835693227959122411877824559627657882820423326960605171711899150226806148416329682109782541543171713091420074173351348895720113028225074133566184423356730378809029596528824583090686354285422488656073856621523102138242449323132338503267939425918151542848123249360896, 214952363123903425553806635278795963961086233355678429058626881450582711652700576660634284621431423409524166200464430988208384473987171625763327191571465121179523375426439695125363062954862783826049531932102414528863196393665877936703629167850975732417703896997277324309294876634043153706293197539393769932348847758965218398522704512695378146527948464996344578117399149353040393538805070383409279505308073783167277124132636832947005459723309550675640818162312065665021336789893284227967224221569563260997220699023472276404178820876545897289391236679598045743110509021283242734355815146631756079130291865382015560503177305109994315945300691822237886679404112146037226531582330487700362083802249129923129439812048989709926529546082588831572371840339721290491113073760010439004667653887935937301265481348398989146667547410473857305647164876659622747486005406063010994904323122650658127478698379543441577584540678952084005962284413579103153308393030144960307315108795307279505629804134283733183879041215100003985385172597450540862487294191085138260277150337074440479832852641042317967544182270775204467914227438057522751506906728481390590612540857539266556252859892411384767430486291832275317531726992820875406949732730475549531635351252110210575479897866331910147767036825369089206905998277782731162513731233891743019475845634481038610241973597942059825682162191510407476479802281767364272630429043205070709915305356759676152034789413726755370149301684063505620557050671678538729206052186240298161516473671646283165669407281942094710087132496590448845950545047354278537660781327358668365159547349847581107389273443755380493974268735490182505286605523911585184157051154171066705687744078601125425452842353595792248720144152027596102005836421568453456116377114303799288781820113498577288998069442817382202899449145468037633816252527873617704807932042107931738508955396126504007783736731838931943895510505516323659703393288249170750389053253185699841⟩,
    ⟨c_ubenu, adm_e_II, adm_s_II, 0, 452898714247565186420278601004640695389873286254716454602905339170445881691673600981093980⟩,
    ⟨c_ubmunu, adm_e_II, adm_s_II, 0, 453092981322055278791951437538833230798504187086194025234537424662599936604270538415820480⟩,
    ⟨c_ubtaunu, adm_e_II, adm_s_II, 0, 453287248396545371163624274073025766207135087917671595866169510154753991516867475850546980⟩,
    ⟨c_cbenu, adm_e_II, adm_s_II, 0, 452900656918310087343995329369982620743959595263031230309221660025367422240799570355441245⟩,
    ⟨c_cbmunu, adm_e_II, adm_s_II, 0, 453094923992800179715668165904175156152590496094508800940853745517521477153396507790167745⟩,
    ⟨c_cbtaunu, adm_e_II, adm_s_II, 0, 453289191067290272087341002438367691561221396925986371572485831009675532065993445224894245⟩,
    ⟨c_usenu, adm_e_II, adm_s_II, 0, 452879287540116177183111317351221441849010196171568697539742130621230476200413907237621330⟩,
    ⟨c_usmunu, adm_e_II, adm_s_II, 0, 453073554614606269554784153885413977257641097003046268171374216113384531113010844672347830⟩,
    ⟨c_ustaunu, adm_e_II, adm_s_II, 0, 453267821689096361926456990419606512666271997834523838803006301605538586025607782107074330⟩,
    ⟨c_csenu, adm_e_II, adm_s_II, 0, 452881230210861078106828045716563367203096505179883473246058451476152016749539876611968595⟩,
    ⟨c_csmunu, adm_e_II, adm_s_II, 0, 453075497285351170478500882250755902611727406011361043877690536968306071662136814046695095⟩,
    ⟨c_cstaunu, adm_e_II, adm_s_II, 0, 453269764359841262850173718784948438020358306842838614509322622460460126574733751481421595⟩,
    ⟨c_udenu, adm_e_II, adm_s_II, 0, 452859860832667167945944033697802188308147106088420940476578922072015070709154213494148680⟩,
    ⟨c_udmunu, adm_e_II, adm_s_II, 0, 453054127907157260317616870231994723716778006919898511108211007564169125621751150928875180⟩,
    ⟨c_udtaunu, adm_e_II, adm_s_II, 0, 453248394981647352689289706766187259125408907751376081739843093056323180534348088363601680⟩,
    ⟨c_cdenu, adm_e_II, adm_s_II, 0, 452861803503412068869660762063144113662233415096735716182895242926936611258280182868495945⟩,
    ⟨c_cdmunu, adm_e_II, adm_s_II, 0, 453056070577902161241333598597336649070864315928213286814527328419090666170877120303222445⟩,
    ⟨c_cdtaunu, adm_e_II, adm_s_II, 0, 453250337652392253613006435131529184479495216759690857446159413911244721083474057737948945⟩,
    ⟨c_sbnunu, adm_e_inv, adm_s_inv, 0, 1194510761934706409850166510285777260504600819721800983146210627640774099152559666389423394708913175566632436⟩,
    ⟨c_dbnunu, adm_e_inv, adm_s_inv, 0, 1194488364485148624401760835744940743284214580516019562149093507176708651709737580604574287333397114804127210⟩,
    ⟨c_sdnunu, adm_e_inv, adm_s_inv, 0, 1194486124719046574201303258456804909735889823838780701794301817874484749988907795333105915569145173796865513⟩,
    ⟨c_cununu, adm_e_inv, adm_s_inv, 0, 1172088655937377802507437959391031483634984475638524927331747484884167328487206835044488515780052655826935513⟩,
    ⟨c_ffnunu, adm_e_ffnunu, adm_s_ffnunu, 0, 47398216253915784241059568672738259546548937567701018060022899413304390165606056029856717917596993846302082716230719183588327855053577167342901820932653789852606010491890370353504474148005741370618845646850099209998590666458492596203876670468796692379037450048481667200077969266366649605544246159156379247792363568768736467456242830790763401616199132546312068193669875567470350670188519995770798964685185746414910588258755011261756993439806959992905295809288943627751887199686292823969182847788070995974143249747998970256035021790011500353550715735420555160913289520708152870376⟩,
    ⟨c_uddnu, adm_e_uddnu, adm_s_uddnu, 0, 305648598311438432173467470178568728⟩,
    ⟨c_udsnu, adm_e_udsnu, adm_s_udsnu, 0, 468599381058678736445273079057402340341979720904634276522580699127245652398356584248039980⟩,
    ⟨c_udbnu, adm_e_udsnu, adm_s_udsnu, 0, 468793648133168828816794265746967591495173169775489447518549483749488574269903144855722640⟩,
    ⟨c_ussnu, adm_e_uddnu, adm_s_uddnu, 0, 305788040010445504387717331305123338⟩,
    ⟨c_usbnu, adm_e_udsnu, adm_s_udsnu, 0, 468813074840617838054113199245014129292789064547275530567443954281969215527684095568699000⟩,
    ⟨c_ubbnu, adm_e_uddnu, adm_s_uddnu, 0, 305927481709452576601967192431677948⟩,
    ⟨c_cddnu, adm_e_uddnu, adm_s_uddnu, 0, 306916250120593634111207906204732028⟩,
    ⟨c_cdsnu, adm_e_udsnu, adm_s_udsnu, 0, 470542051803579660162001444399327694426973376491394056488833592935432098798855078452845110⟩,
    ⟨c_cdbnu, adm_e_udsnu, adm_s_udsnu, 0, 470736318878069752533522631088892945580166825362249227484802377557675020670401639060527770⟩,
    ⟨c_cssnu, adm_e_uddnu, adm_s_uddnu, 0, 307055691819600706325457767331286638⟩,
    ⟨c_csbnu, adm_e_udsnu, adm_s_udsnu, 0, 470755745585518761770841564586939483377782720134035310533696848090155661928182589773504130⟩,
    ⟨c_cbbnu, adm_e_uddnu, adm_s_uddnu, 0, 307195133518607778539707628457841248⟩,
    ⟨c_uude, adm_e_uude, adm_s_uude, 0, 335629583140178662511848⟩,
    ⟨c_uudmu, adm_e_uude, adm_s_uude, 0, 335630736062782782035177⟩,
    ⟨c_uudtau, adm_e_uude, adm_s_uude, 0, 335631888985386901558506⟩,
    ⟨c_ucde, adm_e_ucde, adm_s_ucde, 0, 1074605273409527291590381145637945135512710118812944211105010⟩,
    ⟨c_ucdmu, adm_e_ucde, adm_s_ucde, 0, 1074606805906529660510368311040603353725620518358035199153395⟩,
    ⟨c_ucdtau, adm_e_ucde, adm_s_ucde, 0, 1074608338403532029430355476443261571938530917903126187201780⟩,
    ⟨c_ccde, adm_e_uude, adm_s_uude, 0, 335756404626631810078038⟩,
    ⟨c_ccdmu, adm_e_uude, adm_s_uude, 0, 335757557549235929601367⟩,
    ⟨c_ccdtau, adm_e_uude, adm_s_uude, 0, 335758710471840049124696⟩,
    ⟨c_uuse, adm_e_uude, adm_s_uude, 0, 336782505744298185840848⟩,
    ⟨c_uusmu, adm_e_uude, adm_s_uude, 0, 336783658666902305364177⟩,
    ⟨c_uustau, adm_e_uude, adm_s_uude, 0, 336784811589506424887506⟩,
    ⟨c_ucse, adm_e_ucde, adm_s_ucde, 0, 1074620598379552360650177895717636557942206922713597275789530⟩,
    ⟨c_ucsmu, adm_e_ucde, adm_s_ucde, 0, 1074622130876554729570165061120294776155117322258688263837915⟩,
    ⟨c_ucstau, adm_e_ucde, adm_s_ucde, 0, 1074623663373557098490152226522952994368027721803779251886300⟩,
    ⟨c_ccse, adm_e_uude, adm_s_uude, 0, 336909327230751333407038⟩,
    ⟨c_ccsmu, adm_e_uude, adm_s_uude, 0, 336910480153355452930367⟩,
    ⟨c_ccstau, adm_e_uude, adm_s_uude, 0, 336911633075959572453696⟩,
    ⟨c_uube, adm_e_uude, adm_s_uude, 0, 337935428348417709169848⟩,
    ⟨c_uubmu, adm_e_uude, adm_s_uude, 0, 337936581271021828693177⟩,
    ⟨c_uubtau, adm_e_uude, adm_s_uude, 0, 337937734193625948216506⟩,
    ⟨c_ucbe, adm_e_ucde, adm_s_ucde, 0, 1074635923349577429709974645797327980371703726614250340474050⟩,
    ⟨c_ucbmu, adm_e_ucde, adm_s_ucde, 0, 1074637455846579798629961811199986198584614126159341328522435⟩,
    ⟨c_ucbtau, adm_e_ucde, adm_s_ucde, 0, 1074638988343582167549948976602644416797524525704432316570820⟩,
    ⟨c_ccbe, adm_e_uude, adm_s_uude, 0, 338062249834870856736038⟩,
    ⟨c_ccbmu, adm_e_uude, adm_s_uude, 0, 338063402757474976259367⟩,
    ⟨c_ccbtau, adm_e_uude, adm_s_uude, 0, 338064555680079095782696⟩]

/-- exchange of the generations 1 and 2 of u -/
def img_u12 : List (ℕ × ℕ) :=
  [(1, 541712127045877258285760512),
    (2, 541712127045877258285760512),
    (3, 541712127045877258285760512),
    (4, 580407200312916815523086340),
    (5, 11685203774615945668873868432916480),
    (7, 31065864094909340709930079510447568160114645185848943678577390605303812),
    (6, 31065864094909340709930079510447568160114645185848943678577390605303812),
    (9, 31065864094909340709930079510447568160114645185848943678577390605303812),
    (8, 31065864094909340709930079510447568160114645185848943678577390605303812),
    (11, 31065864094909340709930079510447568160114645185848943678577390605303812),
    (10, 31065864094909340709930079510447568160114645185848943678577390605303812),
    (12, 11685203774615945668873868432916480),
    (13, 11685203774615945668873868432916480),
    (14, 711078681558410931421917407341879885171993655425484612035321119169592274351194005038819758987011295343127824239075231897562986108836204079314743891930060877679430026964187192519501381095956009060087861028098901670402474117644706718379278417541760263313302650601094514633823152998223534478858807930152137998354492927091862262683862148034985208427157204734597304604439832146229252031629534369581225997973449621504),
    (15, 711078681558410931421917407341879885171993655425484612035321119169592274351194005038819758987011295343127824239075231897562986108836204079314743891930060877679430026964187192519501381095956009060087861028098901670402474117644706718379278417541760263313302650601094514633823152998223534478858807930152137998354492927091862262683862148034985208427157204734597304604439832146229252031629534369581225997973449621504),
    (16, 711078681558410931421917407341879885171993655425484612035321119169592274351194005038819758987011295343127824239075231897562986108836204079314743891930060877679430026964187192519501381095956009060087861028098901670402474117644706718379278417541760263313302650601094514633823152998223534478858807930152137998354492927091862262683862148034985208427157204734597304604439832146229252031629534369581225997973449621504),
    (17, 704789008143745372503795968096382031712272852995158934766815147431014719325182445866589521195428810098580434589148470161345866095559071908277998083904286430843392628400706659809995856587664605214029777507190786725361529072482872914652456236495294602727060925287976489503991947290978056327835132243830065520721468824101598149436223206972428374301804604191400267874782100763714434177155579098223846141698078998540),
    (18, 11685203774615945668873868432916480),
    (19, 11685203774615945668873868432916480),
    (20, 11685203774615945668873868432916480),
    (21, 11685203774615945668873868432916480),
    (22, 11685203774615945668873868432916480),
    (23, 11685203774615945668873868432916480),
    (24, 11685203774615945668873868432916480),
    (25, 11685203774615945668873868432916480),
    (26, 11685203774615945668873868432916480),
    (27, 11685203774615945668873868432916480),
    (28, 11685203774615945668873868432916480),
    (29, 11685203774615945668873868432916480),
    (30, 11685203774615945668873868432916480),
    (31, 11685203774615945668873868432916480),
    (32, 11685203774615945668873868432916480),
    (33, 11685203774615945668873868432916480),
    (34, 11685203774615945668873868432916480),
    (35, 11685203774615945668873868432916480),
    (37, 12334240881932799122440180474068992),
    (36, 12334240881932799122440180474068992),
    (39, 12334240881932799122440180474068992),
    (38, 12334240881932799122440180474068992),
    (41, 12334240881932799122440180474068992),
    (40, 12334240881932799122440180474068992),
    (42, 147151143665203807147645724818014822256466287826245996997860060628251533201331710087166365187692544957410793150244970214341287787877621524667967637672209423387886134767814219127621055119337230397541688894124997761196130923279406706885637337028802170366232828407988224),
    (43, 147151143665203807147645724818014822256466287826245996997860060628251533201331710087166365187692544957410793150244970214341287787877621524667967637672209423387886134767814219127621055119337230397541688894124997761196130923279406706885637337028802170366232828407988224),
    (44, 147151143665203807147645724818014822256466287826245996997860060628251533201331710087166365187692544957410793150244970214341287787877621524667967637672209423387886134767814219127621055119337230397541688894124997761196130923279406706885637337028802170366232828407988224),
    (45, 4504424395325440),
    (46, 4504424395325440),
    (47, 4504424395325440),
    (48, 23062934516532264960),
    (49, 23062934516532264960),
    (50, 23062934516532264960),
    (51, 141380556061651752099407092857612934641026512783708303766431510965367357440),
    (52, 1748750418635535457735644279657531305594108941029982561504346112),
    (53, 1748750418635535457735644279657531305594108941029982561504346112),
    (54, 1748750418635535457735644279657531305594108941029982561504346112),
    (55, 194345568083171821112922422920421922407137834700234038559892988117974627611728102381944948563975063594283944401218664686455971904185079281385124491122461818855118831809265916764926888488315836467009866413222229730584032555797311273242766238232433536195853663197505652475589318554198064744341042754624577997923920805606479970627453364907138459359426265326077000818767656188798157642734426290750423497386302449331686108672554179774316039831282171963339127116465574267740650580050978569314174990317066613398607256415843048571072998955504406796590720110930830946749246622190071173659580632691690088330078129689212387819298079882166154526029725532337354672365375802176451488534713777952804446616587485700726502211613808026207671463027541476031121670054110062208105732612006475789337157716097790449007396148774915212350055725592687652538423656740735792846287580141485674806930929625552276517408965236053171150125556696397415278390604247018574575337231506665192037731866868885974696784906851638760168158923067563391035258205597327504890355310561563752042463767292386605038389239094500984916715718403268888279003007675713606734145817701871506901159226807002950433057194131456),
    (59, 20956838423772531166439474380770515921510927471493120),
    (60, 20956838423772531166439474380770515921510927471493120),
    (61, 20956838423772531166439474380770515921510927471493120),
    (56, 20956838423772531166439474380770515921510927471493120),
    (57, 20956838423772531166439474380770515921510927471493120),
    (58, 20956838423772531166439474380770515921510927471493120),
    (65, 20956838423772531166439474380770515921510927471493120),
    (66, 20956838423772531166439474380770515921510927471493120),
    (67, 20956838423772531166439474380770515921510927471493120),
    (62, 20956838423772531166439474380770515921510927471493120),
    (63, 20956838423772531166439474380770515921510927471493120),
    (64, 20956838423772531166439474380770515921510927471493120),
    (71, 20956838423772531166439474380770515921510927471493120),
    (72, 20956838423772531166439474380770515921510927471493120),
    (73, 20956838423772531166439474380770515921510927471493120),
    (68, 20956838423772531166439474380770515921510927471493120),
    (69, 20956838423772531166439474380770515921510927471493120),
    (70, 20956838423772531166439474380770515921510927471493120),
    (74, 1748750418635535457735644279657531305594108941029982561504346112),
    (75, 1748750418635535457735644279657531305594108941029982561504346112),
    (76, 1748750418635535457735644279657531305594108941029982561504346112),
    (77, 1800147333775611686845572454496735253653968549748019636935360514),
    (78, 5616814366828147800191750682213546869869673260320109060365086326200438121128858646421132539144598137738222419726722498838811629907668772751550528485704606376866403085642589233151490093381269054906155387945969344737514343626630917909923028767947432936535228015926054784120124853339003507827804635923606975299394328224257315248362411416994548039680),
    (85, 23062934516532264960),
    (86, 20956838423772531166439474380770515921510927471493120),
    (87, 20956838423772531166439474380770515921510927471493120),
    (88, 23062934516532264960),
    (89, 20956838423772531166439474380770515921510927471493120),
    (90, 23062934516532264960),
    (79, 23062934516532264960),
    (80, 20956838423772531166439474380770515921510927471493120),
    (81, 20956838423772531166439474380770515921510927471493120),
    (82, 23062934516532264960),
    (83, 20956838423772531166439474380770515921510927471493120),
    (84, 23062934516532264960),
    (97, 824767954944),
    (98, 824767954944),
    (99, 824767954944),
    (94, 12009801479084519060029436065742852),
    (95, 12009801479084519060029436065742852),
    (96, 12009801479084519060029436065742852),
    (91, 824767954944),
    (92, 824767954944),
    (93, 824767954944),
    (106, 824767954944),
    (107, 824767954944),
    (108, 824767954944),
    (103, 12009801479084519060029436065742852),
    (104, 12009801479084519060029436065742852),
    (105, 12009801479084519060029436065742852),
    (100, 824767954944),
    (101, 824767954944),
    (102, 824767954944),
    (115, 824767954944),
    (116, 824767954944),
    (117, 824767954944),
    (112, 12009801479084519060029436065742852),
    (113, 12009801479084519060029436065742852),
    (114, 12009801479084519060029436065742852),
    (109, 824767954944),
    (110, 824767954944),
    (111, 824767954944)]

/-- exchange of the generations 1 and 2 of d -/
def img_d12 : List (ℕ × ℕ) :=
  [(2, 541712127045877258285760512),
    (1, 541712127045877258285760512),
    (3, 580407200312916815523086340),
    (4, 541712127045877258285760512),
    (5, 11685203697263578068908961312030720),
    (8, 32790879381005732743292798179453374827801033658787116703014861957775360),
    (9, 32790879381005732743292798179453374827801033658787116703014861957775360),
    (6, 32790879381005732743292798179453374827801033658787116703014861957775360),
    (7, 32790879381005732743292798179453374827801033658787116703014861957775360),
    (11, 32790879381005732744041087017766797121921478749462882137753886507679744),
    (10, 32790879381005732744041087017766797121921478749462882137753886507679744),
    (13, 12334399338267272384643781995003908),
    (12, 12334399338267272384643781995003908),
    (15, 711078681558410931421917407341879885171993655425484612035321118680243552878188129839895752335905797411970156661027268715224787031798220540500924781536784275925479640132653685997517882694719156218671914445176376160035497139651802174595837761556239842533806254189746725093019686285745042113498714781971224528008170709938890928526538523982432876887815466660969633646968760274865603086785935966434932404888363171852),
    (14, 711078681558410931421917407341879885171993655425484612035321118680243552878188129839895752335905797411970156661027268715224787031798220263454844713362548229915191303923241144555972630099997733080000057349783934640457147236034213996611374692646154927607826098711431383007401329902823304876616404752573578276527018251047514961963211472378384463028976561490320495718330411431926743549639764869771984731742264180752),
    (16, 704789008143745394849204743566528735386894409199544652110315137726681998367394180025598773348482565975962374363852349249984217152594636454705427335007390602071980266046109855317157136681454700161385079635524085258488150109712476055807967452172829866807167260470433717163926239312368381480043235909793826158420558304006490985713179792232564605782698953451930947045548911276918372410071059566271037934373754142740),
    (17, 711078681558410931421917407341879885171993655425484612035321119169592274351194005038819784290380617670627877443369800203149410077420122255953198152446154974052624448016610708656805762561233930879008108809690355694502578216387239193817232952641326850350394578798548350402676311042385350709005439197847048320008346582638778294252834536630141544105697002942525328911127795622793236469572002257705625485479017185284),
    (24, 11685203774615945668873868432916480),
    (25, 11685203774615945668873868432916480),
    (26, 11685203774615945668873868432916480),
    (27, 11685203774615945668873868432916480),
    (28, 11685203774615945668873868432916480),
    (29, 11685203774615945668873868432916480),
    (18, 11685203774615945668873868432916480),
    (19, 11685203774615945668873868432916480),
    (20, 11685203774615945668873868432916480),
    (21, 11685203774615945668873868432916480),
    (22, 11685203774615945668873868432916480),
    (23, 11685203774615945668873868432916480),
    (31, 11685203774625390401839607723343872),
    (30, 11685203774625390401839607723343872),
    (33, 11685203774625390401839607723343872),
    (32, 11685203774625390401839607723343872),
    (35, 11685203774625390401839607723343872),
    (34, 11685203774625390401839607723343872),
    (36, 11685203774615945668873868432916480),
    (37, 11685203774615945668873868432916480),
    (38, 11685203774615945668873868432916480),
    (39, 11685203774615945668873868432916480),
    (40, 11685203774615945668873868432916480),
    (41, 11685203774615945668873868432916480),
    (42, 147151143785294757328886836429288874179015613013877102924700271959926613565498729374290402962511438188017499498231981103709277288339879564033390004044244099596377101908154518547445256316630215312013924108510394910829010382681290679294650083140084569128768609210859524),
    (43, 147151143785294757328886836429288874179015613013877102924700271959926613565498729374290402962511438188017499498231981103709277288339879564033390004044244099596377101908154518547445256316630215312013924108510394910829010382681290679294650083140084569128768609210859524),
    (44, 147151143785294757328886836429288874179015613013877102924700271959926613565498729374290402962511438188017499498231981103709277288339879564033390004044244099596377101908154518547445256316630215312013924108510394910829010382681290679294650083140084569128768609210859524),
    (45, 4504424395325440),
    (46, 4504424395325440),
    (47, 4504424395325440),
    (48, 23062934516532264960),
    (49, 23062934516532264960),
    (50, 23062934516532264960),
    (51, 141380556061651752099407092857612934641026512783708303766431510965367357440),
    (52, 1748750418635535457735644279657531305594108941029982561504346112),
    (53, 1748750418635535457735644279657531305594108941029982561504346112),
    (54, 1748750418635535457735644279657531305594108941029982561504346112),
    (55, 194950709978239971655562585314412603336360012429316723539350332565201311142596203476895560699339297492545710674421928546787969658625374876925111836836000915824243595689356295801921202866349138220933876929259189500759360235920914205619724830152238020113539483018791267532741896247061627698353463961013809429714887601791263422294132749896086874574733711403357519978048983877052640703553219636918397897348206653670582685842261346557382805998992313284762862894361923645017652496739756994520370160230490401402123770462535196575503243132783151672464693584561371801210555331728120226787956425059334422435886793950041070818856956497863325938545129654675342085294135311882117188632986475204781375558294068866635149910669634445372566854558879356416226493518316002109070681888399214527323676115238463424309091519026603797520605038954832700560829323431008334066691540976655540301098885572437538869194365696688040243865099201928544903843458673813231030317105766365021102897117403357853896378124512964473009907227082883341268136500186784848076785878188935648301667492345120698681277969122883457173832759139762197636979167443534858769241166830829383016200109590717704329970615074816),
    (56, 20956838423772531166439474380770515921510927471493120),
    (57, 20956838423772531166439474380770515921510927471493120),
    (58, 20956838423772531166439474380770515921510927471493120),
    (59, 20956838423772531166439474380770515921510927471493120),
    (60, 20956838423772531166439474380770515921510927471493120),
    (61, 20956838423772531166439474380770515921510927471493120),
    (68, 20956838423772531166439474380770515921510927471493120),
    (69, 20956838423772531166439474380770515921510927471493120),
    (70, 20956838423772531166439474380770515921510927471493120),
    (71, 20956838423772531166439474380770515921510927471493120),
    (72, 20956838423772531166439474380770515921510927471493120),
    (73, 20956838423772531166439474380770515921510927471493120),
    (62, 20956838423772531166439474380770515921510927471493120),
    (63, 20956838423772531166439474380770515921510927471493120),
    (64, 20956838423772531166439474380770515921510927471493120),
    (65, 20956838423772531166439474380770515921510927471493120),
    (66, 20956838423772531166439474380770515921510927471493120),
    (67, 20956838423772531166439474380770515921510927471493120),
    (75, 1748750418635535457735644279657531305594108941029982561504346112),
    (74, 1748750418635535457735644279657531305594108941029982561504346112),
    (76, 1800147333775611686845572454496735253653968549748019636935360514),
    (77, 1748750418635535457735644279657531305594108941029982561504346112),
    (78, 5676538386835809083542526756140035253378714816330302664514654690926744880021796853227856230562711145945307874117179736644894171549344003833400065889840893778116627659212691856226341197162252341887421417331219308352729614390031989827911714010052850962108518035413925147391797211034525285213991800774340236385065208361658107824335631544225655422980),
    (82, 23062934516532264960),
    (80, 16466009000120407011239665390368918395374537625587713),
    (83, 20956838423772531166439474380770515921510927471493120),
    (79, 23062934516532264960),
    (81, 20956838423772531166439474380770515921510927471493120),
    (84, 23062934516532264960),
    (88, 23062934516532264960),
    (86, 16466009000120407011239665390368918395374537625587713),
    (89, 20956838423772531166439474380770515921510927471493120),
    (85, 23062934516532264960),
    (87, 20956838423772531166439474380770515921510927471493120),
    (90, 23062934516532264960),
    (100, 824767954944),
    (101, 824767954944),
    (102, 824767954944),
    (103, 11685203774615945668873868432916480),
    (104, 11685203774615945668873868432916480),
    (105, 11685203774615945668873868432916480),
    (106, 824767954944),
    (107, 824767954944),
    (108, 824767954944),
    (91, 824767954944),
    (92, 824767954944),
    (93, 824767954944),
    (94, 11685203774615945668873868432916480),
    (95, 11685203774615945668873868432916480),
    (96, 11685203774615945668873868432916480),
    (97, 824767954944),
    (98, 824767954944),
    (99, 824767954944),
    (109, 824767954944),
    (110, 824767954944),
    (111, 824767954944),
    (112, 11685203774615945668873868432916480),
    (113, 11685203774615945668873868432916480),
    (114, 11685203774615945668873868432916480),
    (115, 824767954944),
    (116, 824767954944),
    (117, 824767954944)]

/-- exchange of the generations 2 and 3 of d -/
def img_d23 : List (ℕ × ℕ) :=
  [(1, 580407200312916815523086340),
    (3, 541712127045877258285760512),
    (2, 541712127045877258285760512),
    (4, 541712127045877258285760512),
    (12, 11685203813301574202385011237208064),
    (7, 32790879381005732744041087017766797121921478749462882137753886507679744),
    (6, 32790879381005732744041087017766797121921478749462882137753886507679744),
    (11, 32790879381005732743292798179453374827801033658787116703014861957775360),
    (10, 32790879381005732743292798179453374827801033658787116703014861957775360),
    (9, 32790879381005732743292798179453374827801033658787116703014861957775360),
    (8, 32790879381005732743292798179453374827801033658787116703014861957775360),
    (5, 11685203813301574202385011237208064),
    (13, 11685203697263578068908961312030720),
    (14, 704789008143745394849204743566528735386894409199544652110314135724017389545284231848475155317978583226919877392487530834165009405304849367297985908025265410775038686055620696429290625532127769980633361583932618386999141203742521621006428809690467698402301153874896425577743018014482600620228558886757172744788405430508199641109583054832301114132076337506338440873235670817882605570317134581031615551734164750340),
    (16, 711078681558410931421917407341879885171993655425484612035319114674884465933434616646390802875668856517798559031175500352527186524209331225012989471684275296268997735376862779885503537752250589131863189708326764505273541631330277313322985544429501452477286846339811132034611023636434744972031811220725252148139711697131514515429818251486844057016279861367244493508077181527320342613862113587798510942255845490688),
    (15, 711078681558410931421917407341879885171993655425484612035319114674884465933434616646390802875668856517798559031175500352527186524209331225012981217083702099127662592820130269608679108439550495186941527529474217476179975929097254364624912921876573218590576475675570504687381376315836824587755904550892773633702072651170974102685999134474191437056766394923797208366847426542594275776295135239372569274922989273088),
    (17, 711078681558410931421917407341879885171993655425484612035321119169592274351194005038819771646415858350551585958435226110204994691614072351189159968614434220081711374890680966653430216988172184374178574715620408350281817468418484714463591647595779720198296426204664193569759779927476072941120434124602641848226513247021212565147936611305114475662287376630032117921784297649336236369779694757881622114102742646784),
    (19, 11685203774625390401839607723343872),
    (18, 11685203774625390401839607723343872),
    (21, 11685203774625390401839607723343872),
    (20, 11685203774625390401839607723343872),
    (23, 11685203774625390401839607723343872),
    (22, 11685203774625390401839607723343872),
    (31, 11685203774615945668873868432916480),
    (30, 11685203774615945668873868432916480),
    (33, 11685203774615945668873868432916480),
    (32, 11685203774615945668873868432916480),
    (35, 11685203774615945668873868432916480),
    (34, 11685203774615945668873868432916480),
    (25, 11685203774615945668873868432916480),
    (24, 11685203774615945668873868432916480),
    (27, 11685203774615945668873868432916480),
    (26, 11685203774615945668873868432916480),
    (29, 11685203774615945668873868432916480),
    (28, 11685203774615945668873868432916480),
    (36, 11685203774615945668873868432916480),
    (37, 11685203774615945668873868432916480),
    (38, 11685203774615945668873868432916480),
    (39, 11685203774615945668873868432916480),
    (40, 11685203774615945668873868432916480),
    (41, 11685203774615945668873868432916480),
    (42, 147151143785294757328886836429288874179015613013877102924700271959926613565498729374290398912228542071923087789610563502999508417223165616034767509056327812405965816294704403121226584284647747737566267417661062060317119398634400023986028789553176046873776204342657024),
    (43, 147151143785294757328886836429288874179015613013877102924700271959926613565498729374290398912228542071923087789610563502999508417223165616034767509056327812405965816294704403121226584284647747737566267417661062060317119398634400023986028789553176046873776204342657024),
    (44, 147151143785294757328886836429288874179015613013877102924700271959926613565498729374290398912228542071923087789610563502999508417223165616034767509056327812405965816294704403121226584284647747737566267417661062060317119398634400023986028789553176046873776204342657024),
    (45, 4504424395325440),
    (46, 4504424395325440),
    (47, 4504424395325440),
    (48, 23062934516532264960),
    (49, 23062934516532264960),
    (50, 23062934516532264960),
    (51, 141380556061651752099407092857612934641026512783708303766431510965367357440),
    (52, 1748750418635535457735644279657531305594108941029982561504346112),
    (53, 1748750418635535457735644279657531305594108941029982561504346112),
    (54, 1748750418635535457735644279657531305594108941029982561504346112),
    (55, 194950709978239971655562585283135140449468722505871749904819734046431830548589966486502036122856895618601959204232417294753531654791204505209491546935384600711408703729592761564277055882170219893555914034718598263315477325463197663911803534211117083672410059298511007833850870114728507343595600526142706840355093981872800794227005751884088863498389928555476844778899490969626528746253769591366581723472792487212151263083890345705540685833814371522230979497987968644357273732055385610248167958091251117137750787958222614528295975376280385151680403381338422422497164348990964217543087674280067688399576879650843011682355247156744405269341898632159236634993972937698366607242108528273740857222817181918921726532171237907104626437521491702540274949280005037734529486164273589789012040234049222538596506410761170419816942669849060057813323103764828155489136741695397055774084768107322211567339845222918387366473163332591940359282292648399052088797724392478986086247621092692815064764078519239334409920031395783536352597184562135016190617702853495082670588225848776891662303586669895606899333600690242329381599189731077231587368322887657797352835186843579067867349418786816),
    (62, 20956838423772531166439474380770515921510927471493120),
    (63, 20956838423772531166439474380770515921510927471493120),
    (64, 20956838423772531166439474380770515921510927471493120),
    (65, 20956838423772531166439474380770515921510927471493120),
    (66, 20956838423772531166439474380770515921510927471493120),
    (67, 20956838423772531166439474380770515921510927471493120),
    (56, 20956838423772531166439474380770515921510927471493120),
    (57, 20956838423772531166439474380770515921510927471493120),
    (58, 20956838423772531166439474380770515921510927471493120),
    (59, 20956838423772531166439474380770515921510927471493120),
    (60, 20956838423772531166439474380770515921510927471493120),
    (61, 20956838423772531166439474380770515921510927471493120),
    (68, 20956838423772531166439474380770515921510927471493120),
    (69, 20956838423772531166439474380770515921510927471493120),
    (70, 20956838423772531166439474380770515921510927471493120),
    (71, 20956838423772531166439474380770515921510927471493120),
    (72, 20956838423772531166439474380770515921510927471493120),
    (73, 20956838423772531166439474380770515921510927471493120),
    (74, 1800147333775611686845572454496735253653968549748019636935360514),
    (76, 1748750418635535457735644279657531305594108941029982561504346112),
    (75, 1748750418635535457735644279657531305594108941029982561504346112),
    (77, 1748750418635535457735644279657531305594108941029982561504346112),
    (78, 5676538386835809083542526756140035253378714816330302664514654690926744880021796853227856230562711145945307874117179736644894171549344003833400065889840893778116627659212691856226341197162252341887421417331219308352729603564578799198800058707652058780063868182606985748579439371703233277849127834254508231635312436142633473633188479282538728161280),
    (79, 23062934516532264960),
    (81, 20956838423772531166439474380770515921510927471493120),
    (80, 20956838423772531166439474380770515921510927471493120),
    (84, 23062934516532264960),
    (83, 16466009000120407011239665390368918395374537625587713),
    (82, 23062934516532264960),
    (85, 23062934516532264960),
    (87, 20956838423772531166439474380770515921510927471493120),
    (86, 20956838423772531166439474380770515921510927471493120),
    (90, 23062934516532264960),
    (89, 16466009000120407011239665390368918395374537625587713),
    (88, 23062934516532264960),
    (91, 824767954944),
    (92, 824767954944),
    (93, 824767954944),
    (94, 11685203774615945668873868432916480),
    (95, 11685203774615945668873868432916480),
    (96, 11685203774615945668873868432916480),
    (97, 824767954944),
    (98, 824767954944),
    (99, 824767954944),
    (109, 824767954944),
    (110, 824767954944),
    (111, 824767954944),
    (112, 11685203774615945668873868432916480),
    (113, 11685203774615945668873868432916480),
    (114, 11685203774615945668873868432916480),
    (115, 824767954944),
    (116, 824767954944),
    (117, 824767954944),
    (100, 824767954944),
    (101, 824767954944),
    (102, 824767954944),
    (103, 11685203774615945668873868432916480),
    (104, 11685203774615945668873868432916480),
    (105, 11685203774615945668873868432916480),
    (106, 824767954944),
    (107, 824767954944),
    (108, 824767954944)]

/-- exchange of the generations 1 and 2 of e -/
def img_e12 : List (ℕ × ℕ) :=
  [(1, 541712127045877258285760512),
    (2, 541712127045877258285760512),
    (3, 541712127045877258285760512),
    (4, 541712127045877258285760512),
    (5, 11685203774615945668873868432916480),
    (6, 32790879381005732743292798179453374827801033658787116703014861957775360),
    (7, 32790879381005732743292798179453374827801033658787116703014861957775360),
    (8, 32790879381005732743292798179453374827801033658787116703014861957775360),
    (9, 32790879381005732743292798179453374827801033658787116703014861957775360),
    (10, 32790879381005732743292798179453374827801033658787116703014861957775360),
    (11, 32790879381005732743292798179453374827801033658787116703014861957775360),
    (12, 11685203774615945668873868432916480),
    (13, 11685203774615945668873868432916480),
    (14, 711078681558410931416461985602645206914527388764571924306553021853088537785557107066000145126403790035571636109341697998805825833382388376803928827775712091318769906877886741566235090433352552304112816013697106983768613923063614603502077043020226979088123672267223189881818672660740438139650930616419635812316737518128929724846427607207736993738973998125503797713265939771672989021048679922558856565164563513344),
    (15, 711078681558410931416461985602645206914527388764571924306553021853088537785557107066000145126403790035571636109341697998805825833382388376803928827775712091318769906877886741566235090433352552304112816013697106983768613923063614603502077043020226979088123672267223189881818672660740438139650930616419635812316737518128929724846427607207736993738973998125503797713265939771672989021048679922558856565164563513344),
    (16, 711078681558410931416461985602645206914527388764571924306553021853088537785557107066000145126403790035571636109341697998805825833382388376803928827775712091318769906877886741566235090433352552304112816013697106983768613923063614603502077043020226979088123672267223189881818672660740438139650930616419635812316737518128929724846427607207736993738973998125503797713265939771672989021048679922558856565164563513344),
    (17, 711078681558410931421917407341879865790442218820823742521489857567614343200816758486948426779501275586844886705404963904232874115753667214947746458900048324475057560655892616130870974148189314634256296511221647274856387920106577099684285425323731571442184252117493605602714528342841333037568154672928416201428973853779747629503337296327906110950313938045579708100013820750047751929013000467476573724409918930944),
    (19, 12334399376943449268223107821207556),
    (18, 12334399376943449268223107821207556),
    (22, 11685203774615945668873868432916480),
    (23, 11685203774615945668873868432916480),
    (20, 11685203774615945668873868432916480),
    (21, 11685203774615945668873868432916480),
    (25, 12334399376943449268223107821207556),
    (24, 12334399376943449268223107821207556),
    (28, 11685203774615945668873868432916480),
    (29, 11685203774615945668873868432916480),
    (26, 11685203774615945668873868432916480),
    (27, 11685203774615945668873868432916480),
    (31, 12334399376943449268223107821207556),
    (30, 12334399376943449268223107821207556),
    (34, 11685203774615945668873868432916480),
    (35, 11685203774615945668873868432916480),
    (32, 11685203774615945668873868432916480),
    (33, 11685203774615945668873868432916480),
    (37, 11685362269636040547622535070482436),
    (36, 11685362269636040547622535070482436),
    (40, 11685203774615945668873868432916480),
    (41, 11685203774615945668873868432916480),
    (38, 11685203774615945668873868432916480),
    (39, 11685203774615945668873868432916480),
    (44, 147151143785294757328886836429288874179015242955087943023175722163187209353340776376589405973223752311375367264025839537241569405303499599875537422782770018063982700643074251865538112557936654149347387435507865310042146258192094688333367557943195863357150761039446016),
    (43, 145136352154624587562526549481828609595311032064028398575611177202241904170680627937059367893617373176682854964815756664022946477552428130058016910803446311797385272809744313531002400042843073374991754510057201536066891796087174733563701094865857610614035443362103308),
    (42, 147151143785294757328886836429288874179015242955087932247788291314503417105811285151574553906665905866917557259072256381711574145908328448218981727740819750690197819961058827874115063015357183010919581767798808294705051656882586225135186589737109699029253809957257216),
    (46, 4504424395325440),
    (45, 4504424395325440),
    (47, 5067511821238276),
    (49, 25368777663218450436),
    (48, 25368777663218450436),
    (50, 23061808891503329280),
    (51, 141380556061651752099407092857612934641026512783708303766431510965367357440),
    (52, 1800147333775611686845572454496735253653968549748019636935360514),
    (54, 1748750418635535457735644279657531305594108941029982561504346112),
    (53, 1748750418635535457735644279657531305594108941029982561504346112),
    (55, 194950709978239971655037708419869434967255768069415416898798814596148136343086384344732375980775562700176041334138022230504314556793642851851378046372836025024383095256425989598824656004083473136423560090160198300253794024721128246871725709559418920302323349079122740479505830443202414317569520609609443198516340340511841030953570771549842117448955975002619760514480235824559873250188571545268883845374072615708150612571029895061082272885600902157257356243607651113758982493084600120861523628339753527307904605867095985556246728015233691715469090706028354484423913878457502295182901349435150880516765765066364099860221937360255650909148068834634400587558993077766012684961789978926046287250499186128330032368877193563803885236571443184079895799662384238419854025275227091158515500579589989610149558622993815635729180624743054604053280845800508717713440038510574468992980264946115947633702783076482477808010402031188481626635616571136134184453657284983931055996150123818361966924844411344626983470281514475926972734024403116700909114857296463274403397730772667793012549512861829254273691545470664603798273169217058500495979925499314095339553055543615123909248989282304),
    (57, 20956838423772531166439474380770515921510927471493120),
    (56, 20956838423772531166439474380770515921510927471493120),
    (58, 20956838423772531166439474380770515921510927471493120),
    (60, 20956838423772531166439474380770515921510927471493120),
    (59, 20956838423772531166439474380770515921510927471493120),
    (61, 20956838423772531166439474380770515921510927471493120),
    (63, 20956838423772531166439474380770515921510927471493120),
    (62, 20956838423772531166439474380770515921510927471493120),
    (64, 20956838423772531166439474380770515921510927471493120),
    (66, 20956838423772531166439474380770515921510927471493120),
    (65, 20956838423772531166439474380770515921510927471493120),
    (67, 20956838423772531166439474380770515921510927471493120),
    (69, 20956838423772531166439474380770515921510927471493120),
    (68, 20956838423772531166439474380770515921510927471493120),
    (70, 20956838423772531166439474380770515921510927471493120),
    (72, 20956838423772531166439474380770515921510927471493120),
    (71, 20956838423772531166439474380770515921510927471493120),
    (73, 20956838423772531166439474380770515921510927471493120),
    (74, 1748750418635535457735644279657531305594108941029982561504346112),
    (75, 1748750418635535457735644279657531305594108941029982561504346112),
    (76, 1748750418635535457735644279657531305594108941029982561504346112),
    (77, 1748750418635535457735644279657531305594108941029982561504346112),
    (78, 5676538386835809083542526756140035253378714816330302664514654690926744880021796853227856230533392068058342483848171001110738133957832095514732732542341635855150777365626369426506957810763309817229736038285559579688425646314467319519281332914661592204478238146769252057967438989906077996129144135964819874636791273878701704567236083675163206369280),
    (79, 23062934516532264960),
    (80, 20956838423772531166439474380770515921510927471493120),
    (81, 20956838423772531166439474380770515921510927471493120),
    (82, 23062934516532264960),
    (83, 20956838423772531166439474380770515921510927471493120),
    (84, 23062934516532264960),
    (85, 23062934516532264960),
    (86, 20956838423772531166439474380770515921510927471493120),
    (87, 20956838423772531166439474380770515921510927471493120),
    (88, 23062934516532264960),
    (89, 20956838423772531166439474380770515921510927471493120),
    (90, 23062934516532264960),
    (92, 824767954944),
    (91, 824767954944),
    (93, 824767954944),
    (95, 11685203774615945668873868432916480),
    (94, 11685203774615945668873868432916480),
    (96, 11685203774615945668873868432916480),
    (98, 824767954944),
    (97, 824767954944),
    (99, 824767954944),
    (101, 824767954944),
    (100, 824767954944),
    (102, 824767954944),
    (104, 11685203774615945668873868432916480),
    (103, 11685203774615945668873868432916480),
    (105, 11685203774615945668873868432916480),
    (107, 824767954944),
    (106, 824767954944),
    (108, 824767954944),
    (110, 824767954944),
    (109, 824767954944),
    (111, 824767954944),
    (113, 11685203774615945668873868432916480),
    (112, 11685203774615945668873868432916480),
    (114, 11685203774615945668873868432916480),
    (116, 824767954944),
    (115, 824767954944),
    (117, 824767954944)]

/-- exchange of the generations 2 and 3 of e -/
def img_e23 : List (ℕ × ℕ) :=
  [(1, 541712127045877258285760512),
    (2, 541712127045877258285760512),
    (3, 541712127045877258285760512),
    (4, 541712127045877258285760512),
    (5, 11685203774615945668873868432916480),
    (6, 32790879381005732743292798179453374827801033658787116703014861957775360),
    (7, 32790879381005732743292798179453374827801033658787116703014861957775360),
    (8, 32790879381005732743292798179453374827801033658787116703014861957775360),
    (9, 32790879381005732743292798179453374827801033658787116703014861957775360),
    (10, 32790879381005732743292798179453374827801033658787116703014861957775360),
    (11, 32790879381005732743292798179453374827801033658787116703014861957775360),
    (12, 11685203774615945668873868432916480),
    (13, 11685203774615945668873868432916480),
    (14, 711078681558410909076509963436637742590165412327115675001194510770287301502459908369577755997329865160187081779328597118883931113056103355782006118480386542213510870677311763675957181186045541603059282327273689183964072014852162783576881317941370692525833312186205578013819769437934427811285918644791274964183713933235706173477888967523623281046653048034545346035025998033354316797667472102055003071201421574144),
    (15, 711078681558410909076509963436637742590165412327115675001194510770287301502459908369577755997329865160187081779328597118883931113056103355782006118480386542213510870677311763675957181186045541603059282327273689183964072014852162783576881317941370692525833312186205578013819769437934427811285918644791274964183713933235706173477888967523623281046653048034545346035025998033354316797667472102055003071201421574144),
    (16, 711078681558410909076509963436637742590165412327115675001194510770287301502459908369577755997329865160187081779328597118883931113056103355782006118480386542213510870677311763675957181186045541603059282327273689183964072014852162783576881317941370692525833312186205578013819769437934427811285918644791274964183713933235706173477888967523623281046653048034545346035025998033354316797667472102055003071201421574144),
    (17, 711078681558410931421917407341800498337309322734563083382473597467986282405992128573739407084630683175421523254465745748073695705814224392859023203761597550367740745389373980424536877157424045870755400187790721479486363902826547145902415233096180974757968378893828370803244643323199929680235654104755748767903744758985843648179975603736327378695046960665474290154346485456383187819524424085024487340177212063744),
    (20, 11685203774615945668873868432916480),
    (21, 11685203774615945668873868432916480),
    (18, 11685203774615945668873868432916480),
    (19, 11685203774615945668873868432916480),
    (23, 12334399376943449268223107821207556),
    (22, 12334399376943449268223107821207556),
    (26, 11685203774615945668873868432916480),
    (27, 11685203774615945668873868432916480),
    (24, 11685203774615945668873868432916480),
    (25, 11685203774615945668873868432916480),
    (29, 12334399376943449268223107821207556),
    (28, 12334399376943449268223107821207556),
    (32, 11685203774615945668873868432916480),
    (33, 11685203774615945668873868432916480),
    (30, 11685203774615945668873868432916480),
    (31, 11685203774615945668873868432916480),
    (35, 12334399376943449268223107821207556),
    (34, 12334399376943449268223107821207556),
    (38, 11685203774615945668873868432916480),
    (39, 11685203774615945668873868432916480),
    (36, 11685203774615945668873868432916480),
    (37, 11685203774615945668873868432916480),
    (41, 11685362269636040547622535070482436),
    (40, 11685362269636040547622535070482436),
    (42, 145136352154624587562526549481828609593795641322374490085683147812895687739724085536829937320549030588429859039799181982436225689743196346265475556597478667343659355756384937291182723684827557114021194350084495900491901500592615648191221815879883746821013551982903308),
    (44, 147151143785294757328886836429288874177499852213478165136416477277359044473233430566215414688449680610363595919105087313732140769096145239892796013674156443850598810194744522879565188968380287298850269210361925535356193903412696151865280506994125465274715529619193856),
    (43, 147151143785294757328886836429288874177499852213478165136416798330518292267908997539112146101530825589426840303342105560171199697970163814752462969946952218480051134186360019599469860397550583215974492291753724361116741608813698432368299823318075968139425231008710656),
    (47, 4504424395325440),
    (46, 5067511821238276),
    (45, 4504424395325440),
    (50, 23063497466485686272),
    (49, 23061808891503329280),
    (48, 23063497466485686272),
    (51, 141380556061651752099407092857612934641026512783708303766431510965367357440),
    (54, 1748750418635535457735644279657531305594108941029982561504346112),
    (53, 1800147333775611686845572454496735253653968549748019636935360514),
    (52, 1748750418635535457735644279657531305594108941029982561504346112),
    (55, 194950709978239969505666825234317500598483824350119750205802132804627851756370801146097428885799186037014218487371162204573211585351904877572832726227996467049794314917015375433853876926913603451076258970644661942010597787647781116743523093470843372404220202741489768287022630767505727948849953785605618399680965938873772674746633465052557295835660538369668526930284259449642762454214179287560042332006280546345884047844556751133557190914585502573923987303945355879603055617924982146414446714493913070271702408351408325674343529755280099228109719489337022970426421283922442416040312489176986748389556980659950764626584850530466337494389815603314631162581084483818026429528548288405997851500604357130798181506391924113902806019592176837170555941887713453070508344058251502127463090356974614184868422768956049207166487840538153936889140693994852674579211390134519789589849292781226824906889554312501335376527445779695831914202037654961106548788149871205475408420471506027550334420128580439713899047273499336738193523462288362059673222711117850290593706162312527763790004483121588448293545448650397729695171249875560643646897161775123348140249439919115986229056010993664),
    (56, 20956838423772531166439474380770515921510927471493120),
    (58, 20956838423772531166439474380770515921510927471493120),
    (57, 20956838423772531166439474380770515921510927471493120),
    (59, 20956838423772531166439474380770515921510927471493120),
    (61, 20956838423772531166439474380770515921510927471493120),
    (60, 20956838423772531166439474380770515921510927471493120),
    (62, 20956838423772531166439474380770515921510927471493120),
    (64, 20956838423772531166439474380770515921510927471493120),
    (63, 20956838423772531166439474380770515921510927471493120),
    (65, 20956838423772531166439474380770515921510927471493120),
    (67, 20956838423772531166439474380770515921510927471493120),
    (66, 20956838423772531166439474380770515921510927471493120),
    (68, 20956838423772531166439474380770515921510927471493120),
    (70, 20956838423772531166439474380770515921510927471493120),
    (69, 20956838423772531166439474380770515921510927471493120),
    (71, 20956838423772531166439474380770515921510927471493120),
    (73, 20956838423772531166439474380770515921510927471493120),
    (72, 20956838423772531166439474380770515921510927471493120),
    (74, 1748750418635535457735644279657531305594108941029982561504346112),
    (75, 1748750418635535457735644279657531305594108941029982561504346112),
    (76, 1748750418635535457735644279657531305594108941029982561504346112),
    (77, 1748750418635535457735644279657531305594108941029982561504346112),
    (78, 5676538386835809083542526756140035253378714816330302664514654690926744880021796853227856110471768120935069332257398988741764196716567530572002674532880441309993825129636019725631990507093671344008108846308970699363676366051689215048759091985056187526437444294026011466408165629583137186313092774459106510705276793953205732553440407602747404206080),
    (79, 23062934516532264960),
    (80, 20956838423772531166439474380770515921510927471493120),
    (81, 20956838423772531166439474380770515921510927471493120),
    (82, 23062934516532264960),
    (83, 20956838423772531166439474380770515921510927471493120),
    (84, 23062934516532264960),
    (85, 23062934516532264960),
    (86, 20956838423772531166439474380770515921510927471493120),
    (87, 20956838423772531166439474380770515921510927471493120),
    (88, 23062934516532264960),
    (89, 20956838423772531166439474380770515921510927471493120),
    (90, 23062934516532264960),
    (91, 824767954944),
    (93, 824767954944),
    (92, 824767954944),
    (94, 11685203774615945668873868432916480),
    (96, 11685203774615945668873868432916480),
    (95, 11685203774615945668873868432916480),
    (97, 824767954944),
    (99, 824767954944),
    (98, 824767954944),
    (100, 824767954944),
    (102, 824767954944),
    (101, 824767954944),
    (103, 11685203774615945668873868432916480),
    (105, 11685203774615945668873868432916480),
    (104, 11685203774615945668873868432916480),
    (106, 824767954944),
    (108, 824767954944),
    (107, 824767954944),
    (109, 824767954944),
    (111, 824767954944),
    (110, 824767954944),
    (112, 11685203774615945668873868432916480),
    (114, 11685203774615945668873868432916480),
    (113, 11685203774615945668873868432916480),
    (115, 824767954944),
    (117, 824767954944),
    (116, 824767954944)]

/-- exchange of the generations 1 and 2 of nu -/
def img_nu12 : List (ℕ × ℕ) :=
  [(1, 541712127045877258285760512),
    (2, 541712127045877258285760512),
    (3, 541712127045877258285760512),
    (4, 541712127045877258285760512),
    (5, 11685203774615945668873868432916480),
    (6, 32790879381005732743292798179453374827801033658787116703014861957775360),
    (7, 32790879381005732743292798179453374827801033658787116703014861957775360),
    (8, 32790879381005732743292798179453374827801033658787116703014861957775360),
    (9, 32790879381005732743292798179453374827801033658787116703014861957775360),
    (10, 32790879381005732743292798179453374827801033658787116703014861957775360),
    (11, 32790879381005732743292798179453374827801033658787116703014861957775360),
    (12, 11685203774615945668873868432916480),
    (13, 11685203774615945668873868432916480),
    (14, 711078681558410931421917407341879885171993655425484612035321119169592274351194005038819784293468276952513121958994936851279555233802492475710161287533781767887537979902599946689041019104719416042989752163559481444769787193370870147292044586659652991285718656491489469854894361477334046503332151042797779554799990497983251448277035976904946190520457298333566230794153276330479062354822256789451614253091074883584),
    (15, 711078681558410931421917407341879885171993655425484612035321119169592274351194005038819784293468276952513121958994936851279555233802492475710161287533781767887537979902599946689041019104719416042989752163559481444769787193370870147292044586659652991285718656491489469854894361477334046503332151042797779554799990497983251448277035976904946190520457298333566230794153276330479062354822256789451614253091074883584),
    (16, 711078681558410931421917407341879885171993655425484612035321119169592274351194005038819784293468276952513121958994936851279555233802492475710161287533781767887537979902599946689041019104719416042989752163559481444769787193370870147292044586659652991285718656491489469854894361477334046503332151042797779554799990497983251448277035976904946190520457298333566230794153276330479062354822256789451614253091074883584),
    (17, 711078681558410931421917407341879885171993655425484612035321119169592274351194005038819784293468276952513121958994936851279555233802492475710161287533781767887537979902599946689041019104719416042989752163559481444769787193370870147292044586659652991285718656491489469854894361477334046503332151042797779554799990497983251448277035976904946190520457298333566230794153276330479062354822256789451614253091074883584),
    (18, 11685203774615945668873868432916480),
    (19, 11685203774615945668873868432916480),
    (20, 11685203774615945668873868432916480),
    (21, 11685203774615945668873868432916480),
    (22, 11685203774615945668873868432916480),
    (23, 11685203774615945668873868432916480),
    (24, 11685203774615945668873868432916480),
    (25, 11685203774615945668873868432916480),
    (26, 11685203774615945668873868432916480),
    (27, 11685203774615945668873868432916480),
    (28, 11685203774615945668873868432916480),
    (29, 11685203774615945668873868432916480),
    (30, 11685203774615945668873868432916480),
    (31, 11685203774615945668873868432916480),
    (32, 11685203774615945668873868432916480),
    (33, 11685203774615945668873868432916480),
    (34, 11685203774615945668873868432916480),
    (35, 11685203774615945668873868432916480),
    (36, 11685203774615945668873868432916480),
    (37, 11685203774615945668873868432916480),
    (38, 11685203774615945668873868432916480),
    (39, 11685203774615945668873868432916480),
    (40, 11685203774615945668873868432916480),
    (41, 11685203774615945668873868432916480),
    (42, 147151143785294757328886836429288874179015613013877102924700271959926613565498729374290402963500518260329122065193793415699682604303522229222156456423972528482137886104885519796633588104672213472593764806114997922514117071566283814985812139622034974140308289895809024),
    (43, 147151143785294757328886836429288874179015613013877102924700271959926613565498729374290402963500518260329122065193793415699682604303522229222156456423972528482137886104885519796633588104672213472593764806114997922514117071566283814985812139622034974140308289895809024),
    (44, 147151143785294757328886836429288874179015613013877102924700271959926613565498729374290402963500518260329122065193793415699682604303522229222156456423972528482137886104885519796633588104672213472593764806114997922514117071566283814985812139622034974140308289895809024),
    (45, 4504424395325440),
    (46, 4504424395325440),
    (47, 4504424395325440),
    (48, 23062934516532264960),
    (49, 23062934516532264960),
    (50, 23062934516532264960),
    (51, 141371926349988783821669982913978453741936946010123348206622095600179617852),
    (52, 1748675075017282535186503786448758627431613791915399092696555540),
    (53, 1748675075017282535186503786448758627431613791915399092696555540),
    (54, 1748675075017282535186503786448758627431613791915399092696555540),
    (55, 194950709978239971655562585314420241300434955357258956744145089732116761565207682411447549350029525185311020503840778244285413965830218386173394039592997403324881650608027788728474962120801929165580367274288381342331385604153016212101216386024262713870912164196744937925830758524505420890137287615088259027416806965312611032215516663692915201317365297179464028078270816011952168545187739156362830253061685718046365630379134208973870043273299785939969384476958925084614943280288660428792297339502904176695450621100850721689449693950144105629724911061851549447901573922820777980957927595069952750651729080766624049769724969280500255692917651320024392340884420982186491852503718939838774403745003531012797005298476362482602947674000327860281318661117276264709619234654147246151322410552178592377295806369871662956573100772805877170541243489613548273864056562072091973912320715203720036525869224358454229239063057391000231357771907725200738095634105011177430435078948527896595509331982463976498148881107329759053812479831023713124539928554157648307879112932703342018096249684508202040688156480261127632252370940728367788820692995446440925250109932675960507489353809805312),
    (56, 20956473137566173919218507023323062242723428843913220),
    (57, 20956473137566173919218507023323062242723428843913220),
    (58, 20956473137566173919218507023323062242723428843913220),
    (59, 20956473137566173919218507023323062242723428843913220),
    (60, 20956473137566173919218507023323062242723428843913220),
    (61, 20956473137566173919218507023323062242723428843913220),
    (62, 20956473137566173919218507023323062242723428843913220),
    (63, 20956473137566173919218507023323062242723428843913220),
    (64, 20956473137566173919218507023323062242723428843913220),
    (65, 20956473137566173919218507023323062242723428843913220),
    (66, 20956473137566173919218507023323062242723428843913220),
    (67, 20956473137566173919218507023323062242723428843913220),
    (68, 20956473137566173919218507023323062242723428843913220),
    (69, 20956473137566173919218507023323062242723428843913220),
    (70, 20956473137566173919218507023323062242723428843913220),
    (71, 20956473137566173919218507023323062242723428843913220),
    (72, 20956473137566173919218507023323062242723428843913220),
    (73, 20956473137566173919218507023323062242723428843913220),
    (74, 1748675075017282535186503786448758627431613791915399092696555540),
    (75, 1748675075017282535186503786448758627431613791915399092696555540),
    (76, 1748675075017282535186503786448758627431613791915399092696555540),
    (77, 1748675075017282535186503786448758627431613791915399092696555540),
    (78, 5676538372589538181627561933485498992488548506081994329296791024172181762793420721095708894208611775662070644136751971021654448959290473459529036106557493643041987532551487932464486830445723657173071767688840208392791540826204909201096073995576407421628394904715098245212824966199919983146130535210017056977283301601370664710341564855989511028772),
    (79, 23061808891503312900),
    (80, 20956473137566173919218507023323062242723428843913220),
    (81, 20956473137566173919218507023323062242723428843913220),
    (82, 23061808891503312900),
    (83, 20956473137566173919218507023323062242723428843913220),
    (84, 23061808891503312900),
    (85, 23061808891503312900),
    (86, 20956473137566173919218507023323062242723428843913220),
    (87, 20956473137566173919218507023323062242723428843913220),
    (88, 23061808891503312900),
    (89, 20956473137566173919218507023323062242723428843913220),
    (90, 23061808891503312900),
    (91, 824767954944),
    (92, 824767954944),
    (93, 824767954944),
    (94, 11685203774615945668873868432916480),
    (95, 11685203774615945668873868432916480),
    (96, 11685203774615945668873868432916480),
    (97, 824767954944),
    (98, 824767954944),
    (99, 824767954944),
    (100, 824767954944),
    (101, 824767954944),
    (102, 824767954944),
    (103, 11685203774615945668873868432916480),
    (104, 11685203774615945668873868432916480),
    (105, 11685203774615945668873868432916480),
    (106, 824767954944),
    (107, 824767954944),
    (108, 824767954944),
    (109, 824767954944),
    (110, 824767954944),
    (111, 824767954944),
    (112, 11685203774615945668873868432916480),
    (113, 11685203774615945668873868432916480),
    (114, 11685203774615945668873868432916480),
    (115, 824767954944),
    (116, 824767954944),
    (117, 824767954944)]

/-- exchange of the generations 2 and 3 of nu -/
def img_nu23 : List (ℕ × ℕ) :=
  [(1, 541712127045877258285760512),
    (2, 541712127045877258285760512),
    (3, 541712127045877258285760512),
    (4, 541712127045877258285760512),
    (5, 11685203774615945668873868432916480),
    (6, 32790879381005732743292798179453374827801033658787116703014861957775360),
    (7, 32790879381005732743292798179453374827801033658787116703014861957775360),
    (8, 32790879381005732743292798179453374827801033658787116703014861957775360),
    (9, 32790879381005732743292798179453374827801033658787116703014861957775360),
    (10, 32790879381005732743292798179453374827801033658787116703014861957775360),
    (11, 32790879381005732743292798179453374827801033658787116703014861957775360),
    (12, 11685203774615945668873868432916480),
    (13, 11685203774615945668873868432916480),
    (14, 711078681558410931421917407341879885171993655425484612035321119169592274351194005038819784293468276952513121958994936851279555233802492475710161287533781767887537979902599946689041019104719416042989752163559481444769787193370870147292044586659652991285718656491489469854894361477334046503332151042797779554799990497983251448277035976904946190520457298333566230794153276330479062354822256789451614253091074883584),
    (15, 711078681558410931421917407341879885171993655425484612035321119169592274351194005038819784293468276952513121958994936851279555233802492475710161287533781767887537979902599946689041019104719416042989752163559481444769787193370870147292044586659652991285718656491489469854894361477334046503332151042797779554799990497983251448277035976904946190520457298333566230794153276330479062354822256789451614253091074883584),
    (16, 711078681558410931421917407341879885171993655425484612035321119169592274351194005038819784293468276952513121958994936851279555233802492475710161287533781767887537979902599946689041019104719416042989752163559481444769787193370870147292044586659652991285718656491489469854894361477334046503332151042797779554799990497983251448277035976904946190520457298333566230794153276330479062354822256789451614253091074883584),
    (17, 711078681558410931421917407341879885171993655425484612035321119169592274351194005038819784293468276952513121958994936851279555233802492475710161287533781767887537979902599946689041019104719416042989752163559481444769787193370870147292044586659652991285718656491489469854894361477334046503332151042797779554799990497983251448277035976904946190520457298333566230794153276330479062354822256789451614253091074883584),
    (18, 11685203774615945668873868432916480),
    (19, 11685203774615945668873868432916480),
    (20, 11685203774615945668873868432916480),
    (21, 11685203774615945668873868432916480),
    (22, 11685203774615945668873868432916480),
    (23, 11685203774615945668873868432916480),
    (24, 11685203774615945668873868432916480),
    (25, 11685203774615945668873868432916480),
    (26, 11685203774615945668873868432916480),
    (27, 11685203774615945668873868432916480),
    (28, 11685203774615945668873868432916480),
    (29, 11685203774615945668873868432916480),
    (30, 11685203774615945668873868432916480),
    (31, 11685203774615945668873868432916480),
    (32, 11685203774615945668873868432916480),
    (33, 11685203774615945668873868432916480),
    (34, 11685203774615945668873868432916480),
    (35, 11685203774615945668873868432916480),
    (36, 11685203774615945668873868432916480),
    (37, 11685203774615945668873868432916480),
    (38, 11685203774615945668873868432916480),
    (39, 11685203774615945668873868432916480),
    (40, 11685203774615945668873868432916480),
    (41, 11685203774615945668873868432916480),
    (42, 147151143785294757328886836429288874179015613013877102924700271959926613565498729374290402963500518260329122065193793415699682604303522229222156456423972528482137886104885519796633588104672213472593764806114997922514117071566283814985812139622034974140308289895809024),
    (43, 147151143785294757328886836429288874179015613013877102924700271959926613565498729374290402963500518260329122065193793415699682604303522229222156456423972528482137886104885519796633588104672213472593764806114997922514117071566283814985812139622034974140308289895809024),
    (44, 147151143785294757328886836429288874179015613013877102924700271959926613565498729374290402963500518260329122065193793415699682604303522229222156456423972528482137886104885519796633588104672213472593764806114997922514117071566283814985812139622034974140308289895809024),
    (45, 4504424395325440),
    (46, 4504424395325440),
    (47, 4504424395325440),
    (48, 23062934516532264960),
    (49, 23062934516532264960),
    (50, 23062934516532264960),
    (51, 106039301385241992652553595184303916928467784062642775646850127627540267008),
    (52, 1440205769133800798766092510001070361936314026151109863090995200),
    (53, 1440205769133800798766092510001070361936314026151109863090995200),
    (54, 1440205769133800798766092510001070361936314026151109863090995200),
    (55, 194950709978239971655562585314420241300434955357258956744145089732116761565207682411447549350029525185311020503840778244285413965830218386173394039592997403324881650608027788728474962120801929165580367274288381342331385604153016212101216386024262713870912164196744937925830758524505420890137287615088259027416806965312611032215516663692915201317365297179464028078270816011952168545187739156362830253061685718046365630379134208973870043273299785939969384476958925084614943280288660428792297339502904176695450621100850721689449693950144105629724911061851549447901573922820777980957927595069952750651729080766624049769724969280500255692917651320024392340884420982186491852503718939838774403745003531012797005298476362482602947674000327860281318661117276264709619234654147246151322410552178592377295806369871662956573100772805877170541243489613548273864056562072091973912320715203720036525869224358454229239063057391000231357771907725200738095634105011177430435078948527896595509331982463976498148881107329759053812479831023713124539928554157648307879112932703342018096249684508202040688156480261127632252370940728367788820692995446440925250109932675960507489353809805312),
    (56, 19460626122533246549357178276000247607916548904222720),
    (57, 19460626122533246549357178276000247607916548904222720),
    (58, 19460626122533246549357178276000247607916548904222720),
    (59, 19460626122533246549357178276000247607916548904222720),
    (60, 19460626122533246549357178276000247607916548904222720),
    (61, 19460626122533246549357178276000247607916548904222720),
    (62, 19460626122533246549357178276000247607916548904222720),
    (63, 19460626122533246549357178276000247607916548904222720),
    (64, 19460626122533246549357178276000247607916548904222720),
    (65, 19460626122533246549357178276000247607916548904222720),
    (66, 19460626122533246549357178276000247607916548904222720),
    (67, 19460626122533246549357178276000247607916548904222720),
    (68, 19460626122533246549357178276000247607916548904222720),
    (69, 19460626122533246549357178276000247607916548904222720),
    (70, 19460626122533246549357178276000247607916548904222720),
    (71, 19460626122533246549357178276000247607916548904222720),
    (72, 19460626122533246549357178276000247607916548904222720),
    (73, 19460626122533246549357178276000247607916548904222720),
    (74, 1440205769133800798766092510001070361936314026151109863090995200),
    (75, 1440205769133800798766092510001070361936314026151109863090995200),
    (76, 1440205769133800798766092510001070361936314026151109863090995200),
    (77, 1440205769133800798766092510001070361936314026151109863090995200),
    (78, 5437525645870055050904206984710643942486366336275111532601314182528640069440764078053892289957976619302008413164343333972186268586161980634367474236997320745288450414048641678382876968234427072520511729521063173719333056643083964143528966613835708423278109636690220128203079599696829651483373146641571118142782323572447626942166080159442144346112),
    (79, 18452374397944627200),
    (80, 19460626122533246549357178276000247607916548904222720),
    (81, 19460626122533246549357178276000247607916548904222720),
    (82, 18452374397944627200),
    (83, 19460626122533246549357178276000247607916548904222720),
    (84, 18452374397944627200),
    (85, 18452374397944627200),
    (86, 19460626122533246549357178276000247607916548904222720),
    (87, 19460626122533246549357178276000247607916548904222720),
    (88, 18452374397944627200),
    (89, 19460626122533246549357178276000247607916548904222720),
    (90, 18452374397944627200),
    (91, 824767954944),
    (92, 824767954944),
    (93, 824767954944),
    (94, 11685203774615945668873868432916480),
    (95, 11685203774615945668873868432916480),
    (96, 11685203774615945668873868432916480),
    (97, 824767954944),
    (98, 824767954944),
    (99, 824767954944),
    (100, 824767954944),
    (101, 824767954944),
    (102, 824767954944),
    (103, 11685203774615945668873868432916480),
    (104, 11685203774615945668873868432916480),
    (105, 11685203774615945668873868432916480),
    (106, 824767954944),
    (107, 824767954944),
    (108, 824767954944),
    (109, 824767954944),
    (110, 824767954944),
    (111, 824767954944),
    (112, 11685203774615945668873868432916480),
    (113, 11685203774615945668873868432916480),
    (114, 11685203774615945668873868432916480),
    (115, 824767954944),
    (116, 824767954944),
    (117, 824767954944)]

/-- parity -/
def img_parity : List (ℕ × ℕ) :=
  [(1, 464359764056472332347121670),
    (2, 464359764056472332347121670),
    (3, 464359764056472332347121670),
    (4, 464359764056472332347121670),
    (5, 10387446395279928219126574067228678),
    (6, 31928792755668649396907092215773808631167346895413994721047951993479174),
    (7, 31928792755681203601126154415614905162590198888753710674290025173098502),
    (8, 31928792755668649396907092215773808631167346895413994721047951993479174),
    (9, 31928792755681203601126154415614905162590198888753710674290025173098502),
    (10, 31928792755681203601126154415614905162590198888753710674290025173098502),
    (11, 31928792755668649396907092215773808631167346895413994721047951993479174),
    (12, 10387446433975001486166406115368966),
    (13, 10387446395279928219126574067228678),
    (14, 707935380790861824519108674213987792162609924614135094044196219462070279671538329262531467298846106084271733978341542846449931503615544867343276826798675821459045475427706217454393248035427432379446135630355343519647780810755199169463628127515475988235932246792572879986373937664496771827032411046678402677579908286099027467548767115667229181102848598782818588987751205804852457992141548034631334631400965939206),
    (15, 707935380790861824519108674213987792162609924614135094044196219462070279671538329262531467298846106084271733978341542846449931503614409532540943520859155606212104863788855064113561469893083960126369797152195549603394806556152474433486469410311580622511789367605622767239473991918815948150152488588309979549561923865294624688765985510878578700184738060635115318606111183789209566075820473922068268365299759194118),
    (16, 707935380790861824519108674213987792162609924614135094044196219462070279671538329262531467298846106084271733978341542846449931503613842765286003208702809700749904185373312728193702197390898037264005968327501846409641438430885184554094588126565204129903286319664847462753499186580310710433520616982416719761292268544946386934785278755885206263171810424453687020527311828583704144395213145936538897733404325847046),
    (17, 707935380790861913944403140494642515702681489420689452644728257747097213808171452329380490159371402471239595260307215931193458902315001150464218459101928801005659089395096844306511997459750578965175166950797556017319106082601724037931568207360166963278981418063358916088721106742180595444332724184987346800964176414679761150100967678582767839952023112558751032152643466292869198709815557100747157352064844111886),
    (18, 9088421674828699278289066749075462),
    (19, 9088580131163172539929993127403526),
    (20, 9088421674828699278289066749075462),
    (21, 9088580131163172539929993127403526),
    (22, 9088421674828699278289066749075462),
    (23, 9088580131163172539929993127403526),
    (24, 9088421674828699278289066749075462),
    (25, 9088580131163172539929993127403526),
    (26, 9088421674828699278289066749075462),
    (27, 9088580131163172539929993127403526),
    (28, 9088421674828699278289066749075462),
    (29, 9088580131163172539929993127403526),
    (30, 9088580131163172539929993127403526),
    (31, 9088421674828699278289066749075462),
    (32, 9088580131163172539929993127403526),
    (33, 9088421674828699278289066749075462),
    (34, 9088580131163172539929993127403526),
    (35, 9088421674828699278289066749075462),
    (36, 9737458820831178959523512380825606),
    (37, 9088421674828699278289066749075462),
    (38, 9737458820831178959523512380825606),
    (39, 9088421674828699278289066749075462),
    (40, 9737458820831178959523512380825606),
    (41, 9088421674828699278289066749075462),
    (42, 146144239471946753685705418114921472863432211888928335998707777909021341658935726915388944300362732746878947112257822738432364919014590192222647154866510801497570893966599603792337283099317872903284097159401010997598394482716608920857256724128310700273360564436148238),
    (43, 146144239471946753685705418114921472863432211888862134704289699124952763242090908859022574745520465108155478703197020471759883524972890461593357272146456695087576837811490349435784998630767272008974165135858115015919281052881101526197803203009027555952867865018834958),
    (44, 146144239471946753685705418114921472863432211888884178462330230269912525976899644273075976748866893380286532848936728174241200715684173685804349555006528475843576206632183747470783621722534328294420965922709454487707830013876161387321071874154106741096774725913354254),
    (45, 2252624715849734),
    (46, 2252624715849734),
    (47, 2252624715849734),
    (48, 9227313923814858758),
    (49, 9226750836422483974),
    (50, 9226750836422483974),
    (0, 0),
    (52, 822928074296571179072628651669225518501469129626944803770105892),
    (53, 822928074296571179072628651669225518501469129626944803770105892),
    (54, 822928074296571179072628651669225518501469129626944803770105892),
    (55, 195253428701572599443269569365880761177411511790730386282287425053518263088406303189426483074493456804320218935130680194853849279298861398434929203012904932733007608858456312763032985389245144878710711598004545984304650342088113721331939170132837172799529570419845751432213407355255937785577877896818957652595497971011262950457723539728168097865438063317810738218644173615196617985639394137328755408692992143010083155532161031952201023539333481222676134320378146003042434462274311188854475593851767822096727360604834407566544784748094926761508248339898078447679717402478576823439736036914914044018420538914972503718699372252464734211794768684598188222472671202536596187582431630844475935345069526983430245493919165444737528217327561515237481263784868916369093109659418031215241811293232664244044743175247114837825517563734556154148037586585266192792224222782276342541801581570998406322984907852346215522588367127894717867857540325331457634804831038863852204630797447197205738806299576975206497044222698444746595559237224933216600024625661326723927262533054161001032956093228573601967497316568005191247549020660433085687894215098189355903500796447084296036504576217088),
    (0, 0),
    (0, 0),
    (0, 0),
    (0, 0),
    (0, 0),
    (0, 0),
    (0, 0),
    (0, 0),
    (0, 0),
    (0, 0),
    (0, 0),
    (0, 0),
    (0, 0),
    (0, 0),
    (0, 0),
    (0, 0),
    (0, 0),
    (0, 0),
    (74, 822928074296571179072628651669225518501469129626944803770105892),
    (75, 822928074296571179072628651669225518501469129626944803770105892),
    (76, 822928074296571179072628651669225518501469129626944803770105892),
    (77, 822928074296571179072628651669225518501469129626944803770105892),
    (78, 4959500115857381895591963899358136624114119261665784214621535695293239278745516258386601601830518213832952994477087893760996135823602894359965313299487458803776838321212675811562281973454890877540766567932065326049575544226210503330218354870363294563001635103158506680180707186146409015692331396975698519432665955162087437700686271358747501969480),
    (0, 0),
    (0, 0),
    (0, 0),
    (0, 0),
    (0, 0),
    (0, 0),
    (0, 0),
    (0, 0),
    (0, 0),
    (0, 0),
    (0, 0),
    (0, 0),
    (91, 67141644),
    (92, 67141644),
    (93, 67141644),
    (94, 10387446008291435065861857175781400),
    (95, 10387446008291435065861857175781400),
    (96, 10387446008291435065861857175781400),
    (97, 67141644),
    (98, 67141644),
    (99, 67141644),
    (100, 67141644),
    (101, 67141644),
    (102, 67141644),
    (103, 10387446008291435065861857175781400),
    (104, 10387446008291435065861857175781400),
    (105, 10387446008291435065861857175781400),
    (106, 67141644),
    (107, 67141644),
    (108, 67141644),
    (109, 67141644),
    (110, 67141644),
    (111, 67141644),
    (112, 10387446008291435065861857175781400),
    (113, 10387446008291435065861857175781400),
    (114, 10387446008291435065861857175781400),
    (115, 67141644),
    (116, 67141644),
    (117, 67141644)]

end Verif.WetTab
