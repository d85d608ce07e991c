import Verif.Model.ConverterTables

/-
GENERATED by a script from private/mx/core/PlaybackSound.h, include/mx/api/SoundID.h and private/mx/impl/Converter.cpp (instrumentMap).
-/
namespace Mx

/-- `enum class PlaybackSound`, private/mx/core/PlaybackSound.h 17-902 through private/mx/utility/EnumWithString.h 23. -/
inductive Core.PlaybackSound where
  | brassAlphorn | brassAltoHorn | brassBaritoneHorn | brassBugle | brassBugleAlto | brassBugleBaritone | brassBugleContrabass
  | brassBugleEuphoniumBugle | brassBugleMellophoneBugle | brassBugleSoprano | brassCimbasso | brassConchShell | brassCornet | brassCornetSoprano
  | brassCornett | brassCornettTenor | brassCornettino | brassDidgeridoo | brassEuphonium | brassFiscorn | brassFlugelhorn | brassFrenchHorn
  | brassGroup | brassGroupSynth | brassHelicon | brassHoragai | brassKuhlohorn | brassMellophone | brassNaturalHorn | brassOphicleide | brassPosthorn
  | brassRagDung | brassSackbutt | brassSackbuttAlto | brassSackbuttBass | brassSackbuttTenor | brassSaxhorn | brassSerpent | brassShofar
  | brassSousaphone | brassTrombone | brassTromboneAlto | brassTromboneBass | brassTromboneContrabass | brassTromboneTenor | brassTrumpet
  | brassTrumpetBaroque | brassTrumpetBass | brassTrumpetBflat | brassTrumpetC | brassTrumpetD | brassTrumpetPiccolo | brassTrumpetPocket
  | brassTrumpetSlide | brassTrumpetTenor | brassTuba | brassTubaBass | brassTubaSubcontrabass | brassViennaHorn | brassVuvuzela | brassWagnerTuba
  | drumApentemma | drumAshiko | drumAtabaque | drumAtoke | drumAtsimevu | drumAxatse | drumBassDrum | drumBata | drumBataItotele | drumBataIya
  | drumBataOkonkolo | drumBendir | drumBodhran | drumBombo | drumBongo | drumBougarabou | drumBuffaloDrum | drumCajon | drumChenda | drumChuDaiko
  | drumConga | drumCuica | drumDabakan | drumDaff | drumDafli | drumDaibyosi | drumDamroo | drumDarabuka | drumDef | drumDhol | drumDholak
  | drumDjembe | drumDoira | drumDondo | drumDounDounBa | drumDuff | drumDumbek | drumFontomfrom | drumFrameDrum | drumFrameDrumArabian | drumGeduk
  | drumGhatam | drumGome | drumGroup | drumGroupChinese | drumGroupEwe | drumGroupIndian | drumGroupSet | drumHandDrum | drumHiraDaiko | drumIbo
  | drumIgihumurizo | drumInyahura | drumIshakwe | drumJangGu | drumKagan | drumKakko | drumKanjira | drumKendhang | drumKendhangAgeng
  | drumKendhangCiblon | drumKenkeni | drumKhol | drumKickDrum | drumKidi | drumKoDaiko | drumKpanlogo | drumKudum | drumLambeg | drumLionDrum
  | drumLogDrum | drumLogDrumAfrican | drumLogDrumNative | drumLogDrumNigerian | drumMadal | drumMaddale | drumMridangam | drumNaal | drumNagadoDaiko
  | drumNagara | drumNaqara | drumODaiko | drumOkawa | drumOkedoDaiko | drumPahuHula | drumPakhawaj | drumPandeiro | drumPandero | drumPowwow
  | drumPueblo | drumRepinique | drumRiq | drumRototom | drumSabar | drumSakara | drumSampho | drumSangban | drumShimeDaiko | drumSlitDrum
  | drumSlitDrumKrin | drumSnareDrum | drumSnareDrumElectric | drumSogo | drumSurdo | drumTabla | drumTablaBayan | drumTablaDayan | drumTaiko
  | drumTalking | drumTama | drumTamborita | drumTambourine | drumTamte | drumTangku | drumTanTan | drumTaphon | drumTar | drumTasha | drumTenorDrum
  | drumTeponaxtli | drumThavil | drumTheBox | drumTimbale | drumTimpani | drumTinaja | drumToere | drumTombak | drumTomTom | drumTomTomSynth
  | drumTsuzumi | drumTumbak | drumUchiwaDaiko | drumUdaku | drumUdu | drumZarb | effectAeolianHarp | effectAirHorn | effectApplause
  | effectBassStringSlap | effectBird | effectBirdNightingale | effectBirdTweet | effectBreath | effectBubble | effectBullroarer | effectBurst
  | effectCar | effectCarCrash | effectCarEngine | effectCarPass | effectCarStop | effectCrickets | effectDog | effectDoorCreak | effectDoorSlam
  | effectExplosion | effectFluteKeyClick | effectFootsteps | effectFrogs | effectGuitarCutting | effectGuitarFret | effectGunshot | effectHandClap
  | effectHeartbeat | effectHelicopter | effectHighQ | effectHorseGallop | effectJetPlane | effectLaserGun | effectLaugh | effectLionsRoar
  | effectMachineGun | effectMarchingMachine | effectMetronomeBell | effectMetronomeClick | effectPat | effectPunch | effectRain | effectScratch
  | effectScream | effectSeashore | effectSiren | effectSlap | effectSnap | effectStamp | effectStarship | effectStream | effectTelephoneRing
  | effectThunder | effectTrain | effectTrashCan | effectWhip | effectWhistle | effectWhistleMouthSiren | effectWhistlePolice | effectWhistleSlide
  | effectWhistleTrain | effectWind | keyboardAccordion | keyboardBandoneon | keyboardCelesta | keyboardClavichord | keyboardClavichordSynth
  | keyboardConcertina | keyboardFortepiano | keyboardHarmonium | keyboardHarpsichord | keyboardOndesMartenot | keyboardOrgan | keyboardOrganDrawbar
  | keyboardOrganPercussive | keyboardOrganPipe | keyboardOrganReed | keyboardOrganRotary | keyboardPiano | keyboardPianoElectric | keyboardPianoGrand
  | keyboardPianoHonkyTonk | keyboardPianoPrepared | keyboardPianoToy | keyboardPianoUpright | keyboardVirginal | metalAdodo | metalAnvil
  | metalBabendil | metalBellsAgogo | metalBellsAlmglocken | metalBellsBellPlate | metalBellsBellTree | metalBellsCarillon | metalBellsChimes
  | metalBellsChimta | metalBellsChippli | metalBellsChurch | metalBellsCowbell | metalBellsDawuro | metalBellsGankokwe | metalBellsGhungroo
  | metalBellsHatheli | metalBellsJingleBell | metalBellsKhartal | metalBellsMarkTree | metalBellsSistrum | metalBellsSleighBells | metalBellsTemple
  | metalBellsTibetan | metalBellsTinklebell | metalBellsTrychel | metalBellsWindChimes | metalBellsZills | metalBerimbau | metalBrakeDrums
  | metalCrotales | metalCymbalBo | metalCymbalCengCeng | metalCymbalChabara | metalCymbalChinese | metalCymbalChing | metalCymbalClash
  | metalCymbalCrash | metalCymbalFinger | metalCymbalHand | metalCymbalKesi | metalCymbalManjeera | metalCymbalReverse | metalCymbalRide
  | metalCymbalSizzle | metalCymbalSplash | metalCymbalSuspended | metalCymbalTebyoshi | metalCymbalTibetan | metalCymbalTingsha | metalFlexatone
  | metalGong | metalGongAgeng | metalGongAgung | metalGongChanchiki | metalGongChinese | metalGongGandingan | metalGongKempul | metalGongKempyang
  | metalGongKetuk | metalGongKkwenggwari | metalGongLuo | metalGongSinging | metalGongThai | metalGuira | metalHang | metalHiHat | metalJawHarp
  | metalKengong | metalMurchang | metalMusicalSaw | metalSingingBowl | metalSpoons | metalSteelDrums | metalTamtam | metalThundersheet
  | metalTriangle | metalWashboard | pitchedPercussionAngklung | pitchedPercussionBalafon | pitchedPercussionBellLyre | pitchedPercussionBells
  | pitchedPercussionBianqing | pitchedPercussionBianzhong | pitchedPercussionBonang | pitchedPercussionCimbalom | pitchedPercussionCrystalGlasses
  | pitchedPercussionDanTamThapLuc | pitchedPercussionFangxiang | pitchedPercussionGandinganAKayo | pitchedPercussionGangsa | pitchedPercussionGender
  | pitchedPercussionGiying | pitchedPercussionGlassHarmonica | pitchedPercussionGlockenspiel | pitchedPercussionGlockenspielAlto
  | pitchedPercussionGlockenspielSoprano | pitchedPercussionGyil | pitchedPercussionHammerDulcimer | pitchedPercussionHandbells
  | pitchedPercussionKalimba | pitchedPercussionKantil | pitchedPercussionKhim | pitchedPercussionKulintang | pitchedPercussionKulintangAKayo
  | pitchedPercussionKulintangATiniok | pitchedPercussionLikembe | pitchedPercussionLuntang | pitchedPercussionMarimba | pitchedPercussionMarimbaBass
  | pitchedPercussionMbira | pitchedPercussionMbiraArray | pitchedPercussionMetallophone | pitchedPercussionMetallophoneAlto
  | pitchedPercussionMetallophoneBass | pitchedPercussionMetallophoneSoprano | pitchedPercussionMusicBox | pitchedPercussionPelogPanerus
  | pitchedPercussionPemade | pitchedPercussionPenyacah | pitchedPercussionRanatEk | pitchedPercussionRanatEkLek | pitchedPercussionRanatThum
  | pitchedPercussionRanatThumLek | pitchedPercussionReyong | pitchedPercussionSanza | pitchedPercussionSaronBarung | pitchedPercussionSaronDemong
  | pitchedPercussionSaronPanerus | pitchedPercussionSlendroPanerus | pitchedPercussionSlentem | pitchedPercussionTsymbaly | pitchedPercussionTubes
  | pitchedPercussionTubularBells | pitchedPercussionVibraphone | pitchedPercussionXylophone | pitchedPercussionXylophoneAlto
  | pitchedPercussionXylophoneBass | pitchedPercussionXylophoneSoprano | pitchedPercussionXylorimba | pitchedPercussionYangqin | pluckArchlute
  | pluckAutoharp | pluckBaglama | pluckBajo | pluckBalalaika | pluckBalalaikaAlto | pluckBalalaikaBass | pluckBalalaikaContrabass
  | pluckBalalaikaPiccolo | pluckBalalaikaPrima | pluckBalalaikaSecunda | pluckBandola | pluckBandura | pluckBandurria | pluckBanjo | pluckBanjoTenor
  | pluckBanjolele | pluckBarbat | pluckBass | pluckBassAcoustic | pluckBassBolon | pluckBassElectric | pluckBassFretless | pluckBassGuitarron
  | pluckBassSynth | pluckBassSynthLead | pluckBassWashtub | pluckBassWhamola | pluckBegena | pluckBiwa | pluckBordonua | pluckBouzouki
  | pluckBouzoukiIrish | pluckCelticHarp | pluckCharango | pluckChitarraBattente | pluckCithara | pluckCittern | pluckCuatro | pluckDanBau
  | pluckDanNguyet | pluckDanTranh | pluckDanTyBa | pluckDiddleyBow | pluckDomra | pluckDomu | pluckDulcimer | pluckDutar | pluckDuxianqin
  | pluckEktara | pluckGeomungo | pluckGottuvadhyam | pluckGuitar | pluckGuitarAcoustic | pluckGuitarElectric | pluckGuitarNylonString
  | pluckGuitarPedalSteel | pluckGuitarPortuguese | pluckGuitarRequinto | pluckGuitarResonator | pluckGuitarSteelString | pluckGuitjo
  | pluckGuitjoDoubleNeck | pluckGuqin | pluckGuzheng | pluckGuzhengChoazhou | pluckHarp | pluckHarpGuitar | pluckHuapanguera | pluckJaranaHuasteca
  | pluckJaranaJarocha | pluckJaranaJarochaMosquito | pluckJaranaJarochaPrimera | pluckJaranaJarochaSegunda | pluckJaranaJarochaTercera | pluckKabosy
  | pluckKantele | pluckKanun | pluckKayagum | pluckKobza | pluckKomuz | pluckKora | pluckKoto | pluckKutiyapi | pluckLangeleik | pluckLaud
  | pluckLute | pluckLyre | pluckMandobass | pluckMandocello | pluckMandola | pluckMandolin | pluckMandolinOctave | pluckMandora | pluckMandore
  | pluckMarovany | pluckMusicalBow | pluckNgoni | pluckOud | pluckPipa | pluckPsaltery | pluckRuan | pluckSallaneh | pluckSanshin | pluckSantoor
  | pluckSanxian | pluckSarod | pluckSaung | pluckSaz | pluckSe | pluckSetar | pluckShamisen | pluckSitar | pluckSynth | pluckSynthCharang
  | pluckSynthChiff | pluckSynthStick | pluckTambura | pluckTamburaBulgarian | pluckTamburaFemale | pluckTamburaMale | pluckTar | pluckTheorbo
  | pluckTimple | pluckTiple | pluckTres | pluckUkulele | pluckUkuleleTenor | pluckValiha | pluckVeena | pluckVeenaMohan | pluckVeenaRudra
  | pluckVeenaVichitra | pluckVihuela | pluckVihuelaMexican | pluckXalam | pluckYueqin | pluckZither | pluckZitherOvertone | rattleAfoxe | rattleBirds
  | rattleCabasa | rattleCaxixi | rattleCog | rattleGanza | rattleHosho | rattleJawbone | rattleKayamba | rattleKpokoKpoko | rattleLavaStones
  | rattleMaraca | rattleRainStick | rattleRatchet | rattleRattle | rattleShaker | rattleShakerEgg | rattleShekere | rattleSistre | rattleTelevi
  | rattleVibraslap | rattleWasembe | stringsAjaeng | stringsArpeggione | stringsBaryton | stringsCello | stringsCelloPiccolo | stringsContrabass
  | stringsCrwth | stringsDanGao | stringsDihu | stringsErhu | stringsErxian | stringsEsraj | stringsFiddle | stringsFiddleHardanger | stringsGadulka
  | stringsGaohu | stringsGehu | stringsGroup | stringsGroupSynth | stringsHaegeum | stringsHurdyGurdy | stringsIgil | stringsKamancha | stringsKokyu
  | stringsLaruan | stringsLeiqin | stringsLirone | stringsLyraByzantine | stringsLyraCretan | stringsMorinKhuur | stringsNyckelharpa
  | stringsOctobass | stringsRebab | stringsRebec | stringsSarangi | stringsStrohViolin | stringsTrombaMarina | stringsVielle | stringsViol
  | stringsViolAlto | stringsViolBass | stringsViolTenor | stringsViolTreble | stringsViolViolone | stringsViola | stringsViolaDamore | stringsViolin
  | stringsViolonoPiccolo | stringsViolotta | stringsYayliTanbur | stringsYazheng | stringsZhonghu | synthEffects | synthEffectsAtmosphere
  | synthEffectsBrightness | synthEffectsCrystal | synthEffectsEchoes | synthEffectsGoblins | synthEffectsRain | synthEffectsSciFi
  | synthEffectsSoundtrack | synthGroup | synthGroupFifths | synthGroupOrchestra | synthPad | synthPadBowed | synthPadChoir | synthPadHalo
  | synthPadMetallic | synthPadPolysynth | synthPadSweep | synthPadWarm | synthTheremin | synthToneSawtooth | synthToneSine | synthToneSquare
  | voiceAa | voiceAlto | voiceAw | voiceBaritone | voiceBass | voiceChild | voiceCountertenor | voiceDoo | voiceEe | voiceFemale | voiceKazoo
  | voiceMale | voiceMezzoSoprano | voiceMm | voiceOo | voicePercussion | voicePercussionBeatbox | voiceSoprano | voiceSynth | voiceTalkBox
  | voiceTenor | voiceVocals | windFlutesBansuri | windFlutesBlownBottle | windFlutesCalliope | windFlutesDanso | windFlutesDiZi | windFlutesDvojnice
  | windFlutesFife | windFlutesFlageolet | windFlutesFlute | windFlutesFluteAlto | windFlutesFluteBass | windFlutesFluteContraAlto
  | windFlutesFluteContrabass | windFlutesFluteDoubleContrabass | windFlutesFluteIrish | windFlutesFlutePiccolo | windFlutesFluteSubcontrabass
  | windFlutesFujara | windFlutesGemshorn | windFlutesHocchiku | windFlutesHun | windFlutesKaval | windFlutesKawala | windFlutesKhlui
  | windFlutesKnotweed | windFlutesKoncovkaAlto | windFlutesKoudi | windFlutesNey | windFlutesNohkan | windFlutesNose | windFlutesOcarina
  | windFlutesOvertoneTenor | windFlutesPalendag | windFlutesPanpipes | windFlutesQuena | windFlutesRecorder | windFlutesRecorderAlto
  | windFlutesRecorderBass | windFlutesRecorderContrabass | windFlutesRecorderDescant | windFlutesRecorderGarklein | windFlutesRecorderGreatBass
  | windFlutesRecorderSopranino | windFlutesRecorderSoprano | windFlutesRecorderTenor | windFlutesRyuteki | windFlutesShakuhachi
  | windFlutesShepherdsPipe | windFlutesShinobue | windFlutesShvi | windFlutesSuling | windFlutesTarka | windFlutesTumpong | windFlutesVenu
  | windFlutesWhistle | windFlutesWhistleAlto | windFlutesWhistleLowIrish | windFlutesWhistleShiva | windFlutesWhistleSlide | windFlutesWhistleTin
  | windFlutesWhistleTinBflat | windFlutesWhistleTinD | windFlutesXiao | windFlutesXun | windGroup | windJug | windPipesBagpipes | windPipesGaida
  | windPipesHighland | windPipesUilleann | windPungi | windReedAlbogue | windReedAlboka | windReedAlgaita | windReedArghul | windReedBassetHorn
  | windReedBassoon | windReedBawu | windReedBifora | windReedBombarde | windReedChalumeau | windReedClarinet | windReedClarinetA
  | windReedClarinetAlto | windReedClarinetBass | windReedClarinetBasset | windReedClarinetBflat | windReedClarinetContraAlto
  | windReedClarinetContrabass | windReedClarinetEflat | windReedClarinetPiccoloAflat | windReedClarinetteDamour | windReedContrabass
  | windReedContrabassoon | windReedCornamuse | windReedCromorne | windReedCrumhorn | windReedCrumhornAlto | windReedCrumhornBass
  | windReedCrumhornGreatBass | windReedCrumhornSoprano | windReedCrumhornTenor | windReedDiple | windReedDiplica | windReedDuduk | windReedDulcian
  | windReedDulzaina | windReedEnglishHorn | windReedGuanzi | windReedHarmonica | windReedHarmonicaBass | windReedHeckelClarina | windReedHeckelphone
  | windReedHeckelphonePiccolo | windReedHeckelphoneClarinet | windReedHichiriki | windReedHirtenschalmei | windReedHne | windReedHornpipe
  | windReedHouguan | windReedHulusi | windReedJogiBaja | windReedKenBau | windReedKhaenMouthOrgan | windReedLauneddas | windReedMaqrunah
  | windReedMelodica | windReedMijwiz | windReedMizmar | windReedNadaswaram | windReedOboe | windReedOboeBass | windReedOboePiccolo
  | windReedOboeDaCaccia | windReedOboeDamore | windReedOctavin | windReedPi | windReedPibgorn | windReedPiri | windReedRackett | windReedRauschpfeife
  | windReedRhaita | windReedRothphone | windReedSarrusaphone | windReedSaxonette | windReedSaxophone | windReedSaxophoneAlto
  | windReedSaxophoneAulochrome | windReedSaxophoneBaritone | windReedSaxophoneBass | windReedSaxophoneContrabass | windReedSaxophoneMelody
  | windReedSaxophoneMezzoSoprano | windReedSaxophoneSopranino | windReedSaxophoneSopranissimo | windReedSaxophoneSoprano
  | windReedSaxophoneSubcontrabass | windReedSaxophoneTenor | windReedShawm | windReedShenai | windReedSheng | windReedSipsi | windReedSopila
  | windReedSorna | windReedSralai | windReedSuona | windReedSurnai | windReedTaepyeongso | windReedTarogato | windReedTarogatoAncient
  | windReedTrompetaChina | windReedTubax | windReedXaphoon | windReedZhaleika | windReedZurla | windReedZurna | woodAgogoBlock | woodAgungATamlang
  | woodAhoko | woodBones | woodCastanets | woodClaves | woodDrumSticks | woodGourd | woodGraniteBlock | woodGuban | woodGuiro | woodHyoushigi
  | woodIpu | woodJamBlock | woodKaekeeke | woodKagul | woodKalaau | woodKashiklar | woodKubing | woodPanClappers | woodSandBlock | woodSlapstick
  | woodStirDrum | woodTempleBlock | woodTicTocBlock | woodTonetang | woodWoodBlock
deriving DecidableEq

/-- `enum class SoundID`, include/mx/api/SoundID.h 23-913. -/
inductive Api.SoundID where
  | unspecified | errorBadString | brassAlphorn | brassAltoHorn | brassBaritoneHorn | brassBugle | brassBugleAlto | brassBugleBaritone
  | brassBugleContrabass | brassBugleEuphoniumBugle | brassBugleMellophoneBugle | brassBugleSoprano | brassCimbasso | brassConchShell | brassCornet
  | brassCornetSoprano | brassCornett | brassCornettTenor | brassCornettino | brassDidgeridoo | brassEuphonium | brassFiscorn | brassFlugelhorn
  | brassFrenchHorn | brassGroup | brassGroupSynth | brassHelicon | brassHoragai | brassKuhlohorn | brassMellophone | brassNaturalHorn
  | brassOphicleide | brassPosthorn | brassRagDung | brassSackbutt | brassSackbuttAlto | brassSackbuttBass | brassSackbuttTenor | brassSaxhorn
  | brassSerpent | brassShofar | brassSousaphone | brassTrombone | brassTromboneAlto | brassTromboneBass | brassTromboneContrabass
  | brassTromboneTenor | brassTrumpet | brassTrumpetBaroque | brassTrumpetBass | brassTrumpetBflat | brassTrumpetC | brassTrumpetD
  | brassTrumpetPiccolo | brassTrumpetPocket | brassTrumpetSlide | brassTrumpetTenor | brassTuba | brassTubaBass | brassTubaSubcontrabass
  | brassViennaHorn | brassVuvuzela | brassWagnerTuba | drumApentemma | drumAshiko | drumAtabaque | drumAtoke | drumAtsimevu | drumAxatse
  | drumBassDrum | drumBata | drumBataItotele | drumBataIya | drumBataOkonkolo | drumBendir | drumBodhran | drumBombo | drumBongo | drumBougarabou
  | drumBuffaloDrum | drumCajon | drumChenda | drumChuDaiko | drumConga | drumCuica | drumDabakan | drumDaff | drumDafli | drumDaibyosi | drumDamroo
  | drumDarabuka | drumDef | drumDhol | drumDholak | drumDjembe | drumDoira | drumDondo | drumDounDounBa | drumDuff | drumDumbek | drumFontomfrom
  | drumFrameDrum | drumFrameDrumArabian | drumGeduk | drumGhatam | drumGome | drumGroup | drumGroupChinese | drumGroupEwe | drumGroupIndian
  | drumGroupSet | drumHandDrum | drumHiraDaiko | drumIbo | drumIgihumurizo | drumInyahura | drumIshakwe | drumJangGu | drumKagan | drumKakko
  | drumKanjira | drumKendhang | drumKendhangAgeng | drumKendhangCiblon | drumKenkeni | drumKhol | drumKickDrum | drumKidi | drumKoDaiko
  | drumKpanlogo | drumKudum | drumLambeg | drumLionDrum | drumLogDrum | drumLogDrumAfrican | drumLogDrumNative | drumLogDrumNigerian | drumMadal
  | drumMaddale | drumMridangam | drumNaal | drumNagadoDaiko | drumNagara | drumNaqara | drumODaiko | drumOkawa | drumOkedoDaiko | drumPahuHula
  | drumPakhawaj | drumPandeiro | drumPandero | drumPowwow | drumPueblo | drumRepinique | drumRiq | drumRototom | drumSabar | drumSakara | drumSampho
  | drumSangban | drumShimeDaiko | drumSlitDrum | drumSlitDrumKrin | drumSnareDrum | drumSnareDrumElectric | drumSogo | drumSurdo | drumTabla
  | drumTablaBayan | drumTablaDayan | drumTaiko | drumTalking | drumTama | drumTamborita | drumTambourine | drumTamte | drumTangku | drumTanTan
  | drumTaphon | drumTar | drumTasha | drumTenorDrum | drumTeponaxtli | drumThavil | drumTheBox | drumTimbale | drumTimpani | drumTinaja | drumToere
  | drumTombak | drumTomTom | drumTomTomSynth | drumTsuzumi | drumTumbak | drumUchiwaDaiko | drumUdaku | drumUdu | drumZarb | effectAeolianHarp
  | effectAirHorn | effectApplause | effectBassStringSlap | effectBird | effectBirdNightingale | effectBirdTweet | effectBreath | effectBubble
  | effectBullroarer | effectBurst | effectCar | effectCarCrash | effectCarEngine | effectCarPass | effectCarStop | effectCrickets | effectDog
  | effectDoorCreak | effectDoorSlam | effectExplosion | effectFluteKeyClick | effectFootsteps | effectFrogs | effectGuitarCutting | effectGuitarFret
  | effectGunshot | effectHandClap | effectHeartbeat | effectHelicopter | effectHighQ | effectHorseGallop | effectJetPlane | effectLaserGun
  | effectLaugh | effectLionsRoar | effectMachineGun | effectMarchingMachine | effectMetronomeBell | effectMetronomeClick | effectPat | effectPunch
  | effectRain | effectScratch | effectScream | effectSeashore | effectSiren | effectSlap | effectSnap | effectStamp | effectStarship | effectStream
  | effectTelephoneRing | effectThunder | effectTrain | effectTrashCan | effectWhip | effectWhistle | effectWhistleMouthSiren | effectWhistlePolice
  | effectWhistleSlide | effectWhistleTrain | effectWind | keyboardAccordion | keyboardBandoneon | keyboardCelesta | keyboardClavichord
  | keyboardClavichordSynth | keyboardConcertina | keyboardFortepiano | keyboardHarmonium | keyboardHarpsichord | keyboardOndesMartenot
  | keyboardOrgan | keyboardOrganDrawbar | keyboardOrganPercussive | keyboardOrganPipe | keyboardOrganReed | keyboardOrganRotary | keyboardPiano
  | keyboardPianoElectric | keyboardPianoGrand | keyboardPianoHonkyTonk | keyboardPianoPrepared | keyboardPianoToy | keyboardPianoUpright
  | keyboardVirginal | metalAdodo | metalAnvil | metalBabendil | metalBellsAgogo | metalBellsAlmglocken | metalBellsBellPlate | metalBellsBellTree
  | metalBellsCarillon | metalBellsChimes | metalBellsChimta | metalBellsChippli | metalBellsChurch | metalBellsCowbell | metalBellsDawuro
  | metalBellsGankokwe | metalBellsGhungroo | metalBellsHatheli | metalBellsJingleBell | metalBellsKhartal | metalBellsMarkTree | metalBellsSistrum
  | metalBellsSleighBells | metalBellsTemple | metalBellsTibetan | metalBellsTinklebell | metalBellsTrychel | metalBellsWindChimes | metalBellsZills
  | metalBerimbau | metalBrakeDrums | metalCrotales | metalCymbalBo | metalCymbalCengCeng | metalCymbalChabara | metalCymbalChinese | metalCymbalChing
  | metalCymbalClash | metalCymbalCrash | metalCymbalFinger | metalCymbalHand | metalCymbalKesi | metalCymbalManjeera | metalCymbalReverse
  | metalCymbalRide | metalCymbalSizzle | metalCymbalSplash | metalCymbalSuspended | metalCymbalTebyoshi | metalCymbalTibetan | metalCymbalTingsha
  | metalFlexatone | metalGong | metalGongAgeng | metalGongAgung | metalGongChanchiki | metalGongChinese | metalGongGandingan | metalGongKempul
  | metalGongKempyang | metalGongKetuk | metalGongKkwenggwari | metalGongLuo | metalGongSinging | metalGongThai | metalGuira | metalHang | metalHiHat
  | metalJawHarp | metalKengong | metalMurchang | metalMusicalSaw | metalSingingBowl | metalSpoons | metalSteelDrums | metalTamtam | metalThundersheet
  | metalTriangle | metalWashboard | pitchedPercussionAngklung | pitchedPercussionBalafon | pitchedPercussionBellLyre | pitchedPercussionBells
  | pitchedPercussionBianqing | pitchedPercussionBianzhong | pitchedPercussionBonang | pitchedPercussionCimbalom | pitchedPercussionCrystalGlasses
  | pitchedPercussionDanTamThapLuc | pitchedPercussionFangxiang | pitchedPercussionGandinganAKayo | pitchedPercussionGangsa | pitchedPercussionGender
  | pitchedPercussionGiying | pitchedPercussionGlassHarmonica | pitchedPercussionGlockenspiel | pitchedPercussionGlockenspielAlto
  | pitchedPercussionGlockenspielSoprano | pitchedPercussionGyil | pitchedPercussionHammerDulcimer | pitchedPercussionHandbells
  | pitchedPercussionKalimba | pitchedPercussionKantil | pitchedPercussionKhim | pitchedPercussionKulintang | pitchedPercussionKulintangAKayo
  | pitchedPercussionKulintangATiniok | pitchedPercussionLikembe | pitchedPercussionLuntang | pitchedPercussionMarimba | pitchedPercussionMarimbaBass
  | pitchedPercussionMbira | pitchedPercussionMbiraArray | pitchedPercussionMetallophone | pitchedPercussionMetallophoneAlto
  | pitchedPercussionMetallophoneBass | pitchedPercussionMetallophoneSoprano | pitchedPercussionMusicBox | pitchedPercussionPelogPanerus
  | pitchedPercussionPemade | pitchedPercussionPenyacah | pitchedPercussionRanatEk | pitchedPercussionRanatEkLek | pitchedPercussionRanatThum
  | pitchedPercussionRanatThumLek | pitchedPercussionReyong | pitchedPercussionSanza | pitchedPercussionSaronBarung | pitchedPercussionSaronDemong
  | pitchedPercussionSaronPanerus | pitchedPercussionSlendroPanerus | pitchedPercussionSlentem | pitchedPercussionTsymbaly | pitchedPercussionTubes
  | pitchedPercussionTubularBells | pitchedPercussionVibraphone | pitchedPercussionXylophone | pitchedPercussionXylophoneAlto
  | pitchedPercussionXylophoneBass | pitchedPercussionXylophoneSoprano | pitchedPercussionXylorimba | pitchedPercussionYangqin | pluckArchlute
  | pluckAutoharp | pluckBaglama | pluckBajo | pluckBalalaika | pluckBalalaikaAlto | pluckBalalaikaBass | pluckBalalaikaContrabass
  | pluckBalalaikaPiccolo | pluckBalalaikaPrima | pluckBalalaikaSecunda | pluckBandola | pluckBandura | pluckBandurria | pluckBanjo | pluckBanjoTenor
  | pluckBanjolele | pluckBarbat | pluckBass | pluckBassAcoustic | pluckBassBolon | pluckBassElectric | pluckBassFretless | pluckBassGuitarron
  | pluckBassSynth | pluckBassSynthLead | pluckBassWashtub | pluckBassWhamola | pluckBegena | pluckBiwa | pluckBordonua | pluckBouzouki
  | pluckBouzoukiIrish | pluckCelticHarp | pluckCharango | pluckChitarraBattente | pluckCithara | pluckCittern | pluckCuatro | pluckDanBau
  | pluckDanNguyet | pluckDanTranh | pluckDanTyBa | pluckDiddleyBow | pluckDomra | pluckDomu | pluckDulcimer | pluckDutar | pluckDuxianqin
  | pluckEktara | pluckGeomungo | pluckGottuvadhyam | pluckGuitar | pluckGuitarAcoustic | pluckGuitarElectric | pluckGuitarNylonString
  | pluckGuitarPedalSteel | pluckGuitarPortuguese | pluckGuitarRequinto | pluckGuitarResonator | pluckGuitarSteelString | pluckGuitjo
  | pluckGuitjoDoubleNeck | pluckGuqin | pluckGuzheng | pluckGuzhengChoazhou | pluckHarp | pluckHarpGuitar | pluckHuapanguera | pluckJaranaHuasteca
  | pluckJaranaJarocha | pluckJaranaJarochaMosquito | pluckJaranaJarochaPrimera | pluckJaranaJarochaSegunda | pluckJaranaJarochaTercera | pluckKabosy
  | pluckKantele | pluckKanun | pluckKayagum | pluckKobza | pluckKomuz | pluckKora | pluckKoto | pluckKutiyapi | pluckLangeleik | pluckLaud
  | pluckLute | pluckLyre | pluckMandobass | pluckMandocello | pluckMandola | pluckMandolin | pluckMandolinOctave | pluckMandora | pluckMandore
  | pluckMarovany | pluckMusicalBow | pluckNgoni | pluckOud | pluckPipa | pluckPsaltery | pluckRuan | pluckSallaneh | pluckSanshin | pluckSantoor
  | pluckSanxian | pluckSarod | pluckSaung | pluckSaz | pluckSe | pluckSetar | pluckShamisen | pluckSitar | pluckSynth | pluckSynthCharang
  | pluckSynthChiff | pluckSynthStick | pluckTambura | pluckTamburaBulgarian | pluckTamburaFemale | pluckTamburaMale | pluckTar | pluckTheorbo
  | pluckTimple | pluckTiple | pluckTres | pluckUkulele | pluckUkuleleTenor | pluckValiha | pluckVeena | pluckVeenaMohan | pluckVeenaRudra
  | pluckVeenaVichitra | pluckVihuela | pluckVihuelaMexican | pluckXalam | pluckYueqin | pluckZither | pluckZitherOvertone | rattleAfoxe | rattleBirds
  | rattleCabasa | rattleCaxixi | rattleCog | rattleGanza | rattleHosho | rattleJawbone | rattleKayamba | rattleKpokoKpoko | rattleLavaStones
  | rattleMaraca | rattleRainStick | rattleRatchet | rattleRattle | rattleShaker | rattleShakerEgg | rattleShekere | rattleSistre | rattleTelevi
  | rattleVibraslap | rattleWasembe | stringsAjaeng | stringsArpeggione | stringsBaryton | stringsCello | stringsCelloPiccolo | stringsContrabass
  | stringsCrwth | stringsDanGao | stringsDihu | stringsErhu | stringsErxian | stringsEsraj | stringsFiddle | stringsFiddleHardanger | stringsGadulka
  | stringsGaohu | stringsGehu | stringsGroup | stringsGroupSynth | stringsHaegeum | stringsHurdyGurdy | stringsIgil | stringsKamancha | stringsKokyu
  | stringsLaruan | stringsLeiqin | stringsLirone | stringsLyraByzantine | stringsLyraCretan | stringsMorinKhuur | stringsNyckelharpa
  | stringsOctobass | stringsRebab | stringsRebec | stringsSarangi | stringsStrohViolin | stringsTrombaMarina | stringsVielle | stringsViol
  | stringsViolAlto | stringsViolBass | stringsViolTenor | stringsViolTreble | stringsViolViolone | stringsViola | stringsViolaDamore | stringsViolin
  | stringsViolonoPiccolo | stringsViolotta | stringsYayliTanbur | stringsYazheng | stringsZhonghu | synthEffects | synthEffectsAtmosphere
  | synthEffectsBrightness | synthEffectsCrystal | synthEffectsEchoes | synthEffectsGoblins | synthEffectsRain | synthEffectsSciFi
  | synthEffectsSoundtrack | synthGroup | synthGroupFifths | synthGroupOrchestra | synthPad | synthPadBowed | synthPadChoir | synthPadHalo
  | synthPadMetallic | synthPadPolysynth | synthPadSweep | synthPadWarm | synthTheremin | synthToneSawtooth | synthToneSine | synthToneSquare
  | voiceAa | voiceAlto | voiceAw | voiceBaritone | voiceBass | voiceChild | voiceCountertenor | voiceDoo | voiceEe | voiceFemale | voiceKazoo
  | voiceMale | voiceMezzoSoprano | voiceMm | voiceOo | voicePercussion | voicePercussionBeatbox | voiceSoprano | voiceSynth | voiceTalkBox
  | voiceTenor | voiceVocals | windFlutesBansuri | windFlutesBlownBottle | windFlutesCalliope | windFlutesDanso | windFlutesDiZi | windFlutesDvojnice
  | windFlutesFife | windFlutesFlageolet | windFlutesFlute | windFlutesFluteAlto | windFlutesFluteBass | windFlutesFluteContraAlto
  | windFlutesFluteContrabass | windFlutesFluteDoubleContrabass | windFlutesFluteIrish | windFlutesFlutePiccolo | windFlutesFluteSubcontrabass
  | windFlutesFujara | windFlutesGemshorn | windFlutesHocchiku | windFlutesHun | windFlutesKaval | windFlutesKawala | windFlutesKhlui
  | windFlutesKnotweed | windFlutesKoncovkaAlto | windFlutesKoudi | windFlutesNey | windFlutesNohkan | windFlutesNose | windFlutesOcarina
  | windFlutesOvertoneTenor | windFlutesPalendag | windFlutesPanpipes | windFlutesQuena | windFlutesRecorder | windFlutesRecorderAlto
  | windFlutesRecorderBass | windFlutesRecorderContrabass | windFlutesRecorderDescant | windFlutesRecorderGarklein | windFlutesRecorderGreatBass
  | windFlutesRecorderSopranino | windFlutesRecorderSoprano | windFlutesRecorderTenor | windFlutesRyuteki | windFlutesShakuhachi
  | windFlutesShepherdsPipe | windFlutesShinobue | windFlutesShvi | windFlutesSuling | windFlutesTarka | windFlutesTumpong | windFlutesVenu
  | windFlutesWhistle | windFlutesWhistleAlto | windFlutesWhistleLowIrish | windFlutesWhistleShiva | windFlutesWhistleSlide | windFlutesWhistleTin
  | windFlutesWhistleTinBflat | windFlutesWhistleTinD | windFlutesXiao | windFlutesXun | windGroup | windJug | windPipesBagpipes | windPipesGaida
  | windPipesHighland | windPipesUilleann | windPungi | windReedAlbogue | windReedAlboka | windReedAlgaita | windReedArghul | windReedBassetHorn
  | windReedBassoon | windReedBawu | windReedBifora | windReedBombarde | windReedChalumeau | windReedClarinet | windReedClarinetA
  | windReedClarinetAlto | windReedClarinetBass | windReedClarinetBasset | windReedClarinetBflat | windReedClarinetContraAlto
  | windReedClarinetContrabass | windReedClarinetEflat | windReedClarinetPiccoloAflat | windReedClarinetteDamour | windReedContrabass
  | windReedContrabassoon | windReedCornamuse | windReedCromorne | windReedCrumhorn | windReedCrumhornAlto | windReedCrumhornBass
  | windReedCrumhornGreatBass | windReedCrumhornSoprano | windReedCrumhornTenor | windReedDiple | windReedDiplica | windReedDuduk | windReedDulcian
  | windReedDulzaina | windReedEnglishHorn | windReedGuanzi | windReedHarmonica | windReedHarmonicaBass | windReedHeckelClarina | windReedHeckelphone
  | windReedHeckelphonePiccolo | windReedHeckelphoneClarinet | windReedHichiriki | windReedHirtenschalmei | windReedHne | windReedHornpipe
  | windReedHouguan | windReedHulusi | windReedJogiBaja | windReedKenBau | windReedKhaenMouthOrgan | windReedLauneddas | windReedMaqrunah
  | windReedMelodica | windReedMijwiz | windReedMizmar | windReedNadaswaram | windReedOboe | windReedOboeBass | windReedOboePiccolo
  | windReedOboeDaCaccia | windReedOboeDamore | windReedOctavin | windReedPi | windReedPibgorn | windReedPiri | windReedRackett | windReedRauschpfeife
  | windReedRhaita | windReedRothphone | windReedSarrusaphone | windReedSaxonette | windReedSaxophone | windReedSaxophoneAlto
  | windReedSaxophoneAulochrome | windReedSaxophoneBaritone | windReedSaxophoneBass | windReedSaxophoneContrabass | windReedSaxophoneMelody
  | windReedSaxophoneMezzoSoprano | windReedSaxophoneSopranino | windReedSaxophoneSopranissimo | windReedSaxophoneSoprano
  | windReedSaxophoneSubcontrabass | windReedSaxophoneTenor | windReedShawm | windReedShenai | windReedSheng | windReedSipsi | windReedSopila
  | windReedSorna | windReedSralai | windReedSuona | windReedSurnai | windReedTaepyeongso | windReedTarogato | windReedTarogatoAncient
  | windReedTrompetaChina | windReedTubax | windReedXaphoon | windReedZhaleika | windReedZurla | windReedZurna | woodAgogoBlock | woodAgungATamlang
  | woodAhoko | woodBones | woodCastanets | woodClaves | woodDrumSticks | woodGourd | woodGraniteBlock | woodGuban | woodGuiro | woodHyoushigi
  | woodIpu | woodJamBlock | woodKaekeeke | woodKagul | woodKalaau | woodKashiklar | woodKubing | woodPanClappers | woodSandBlock | woodSlapstick
  | woodStirDrum | woodTempleBlock | woodTicTocBlock | woodTonetang | woodWoodBlock
deriving DecidableEq

/-- Members, private/mx/core/PlaybackSound.h 17-76. -/
def members0 : List (Core.PlaybackSound × Str) := [
    (.brassAlphorn, chars "brass.alphorn"), (.brassAltoHorn, chars "brass.alto-horn"), (.brassBaritoneHorn, chars "brass.baritone-horn"),
    (.brassBugle, chars "brass.bugle"), (.brassBugleAlto, chars "brass.bugle.alto"), (.brassBugleBaritone, chars "brass.bugle.baritone"),
    (.brassBugleContrabass, chars "brass.bugle.contrabass"), (.brassBugleEuphoniumBugle, chars "brass.bugle.euphonium-bugle"),
    (.brassBugleMellophoneBugle, chars "brass.bugle.mellophone-bugle"), (.brassBugleSoprano, chars "brass.bugle.soprano"),
    (.brassCimbasso, chars "brass.cimbasso"), (.brassConchShell, chars "brass.conch-shell"), (.brassCornet, chars "brass.cornet"),
    (.brassCornetSoprano, chars "brass.cornet.soprano"), (.brassCornett, chars "brass.cornett"), (.brassCornettTenor, chars "brass.cornett.tenor"),
    (.brassCornettino, chars "brass.cornettino"), (.brassDidgeridoo, chars "brass.didgeridoo"), (.brassEuphonium, chars "brass.euphonium"),
    (.brassFiscorn, chars "brass.fiscorn"), (.brassFlugelhorn, chars "brass.flugelhorn"), (.brassFrenchHorn, chars "brass.french-horn"),
    (.brassGroup, chars "brass.group"), (.brassGroupSynth, chars "brass.group.synth"), (.brassHelicon, chars "brass.helicon"),
    (.brassHoragai, chars "brass.horagai"), (.brassKuhlohorn, chars "brass.kuhlohorn"), (.brassMellophone, chars "brass.mellophone"),
    (.brassNaturalHorn, chars "brass.natural-horn"), (.brassOphicleide, chars "brass.ophicleide"), (.brassPosthorn, chars "brass.posthorn"),
    (.brassRagDung, chars "brass.rag-dung"), (.brassSackbutt, chars "brass.sackbutt"), (.brassSackbuttAlto, chars "brass.sackbutt.alto"),
    (.brassSackbuttBass, chars "brass.sackbutt.bass"), (.brassSackbuttTenor, chars "brass.sackbutt.tenor"), (.brassSaxhorn, chars "brass.saxhorn"),
    (.brassSerpent, chars "brass.serpent"), (.brassShofar, chars "brass.shofar"), (.brassSousaphone, chars "brass.sousaphone"),
    (.brassTrombone, chars "brass.trombone"), (.brassTromboneAlto, chars "brass.trombone.alto"), (.brassTromboneBass, chars "brass.trombone.bass"),
    (.brassTromboneContrabass, chars "brass.trombone.contrabass"), (.brassTromboneTenor, chars "brass.trombone.tenor"),
    (.brassTrumpet, chars "brass.trumpet"), (.brassTrumpetBaroque, chars "brass.trumpet.baroque"), (.brassTrumpetBass, chars "brass.trumpet.bass"),
    (.brassTrumpetBflat, chars "brass.trumpet.bflat"), (.brassTrumpetC, chars "brass.trumpet.c"), (.brassTrumpetD, chars "brass.trumpet.d"),
    (.brassTrumpetPiccolo, chars "brass.trumpet.piccolo"), (.brassTrumpetPocket, chars "brass.trumpet.pocket"),
    (.brassTrumpetSlide, chars "brass.trumpet.slide"), (.brassTrumpetTenor, chars "brass.trumpet.tenor"), (.brassTuba, chars "brass.tuba"),
    (.brassTubaBass, chars "brass.tuba.bass"), (.brassTubaSubcontrabass, chars "brass.tuba.subcontrabass"),
    (.brassViennaHorn, chars "brass.vienna-horn"), (.brassVuvuzela, chars "brass.vuvuzela")]

/-- Members, private/mx/core/PlaybackSound.h 77-136. -/
def members1 : List (Core.PlaybackSound × Str) := [
    (.brassWagnerTuba, chars "brass.wagner-tuba"), (.drumApentemma, chars "drum.apentemma"), (.drumAshiko, chars "drum.ashiko"),
    (.drumAtabaque, chars "drum.atabaque"), (.drumAtoke, chars "drum.atoke"), (.drumAtsimevu, chars "drum.atsimevu"),
    (.drumAxatse, chars "drum.axatse"), (.drumBassDrum, chars "drum.bass-drum"), (.drumBata, chars "drum.bata"),
    (.drumBataItotele, chars "drum.bata.itotele"), (.drumBataIya, chars "drum.bata.iya"), (.drumBataOkonkolo, chars "drum.bata.okonkolo"),
    (.drumBendir, chars "drum.bendir"), (.drumBodhran, chars "drum.bodhran"), (.drumBombo, chars "drum.bombo"), (.drumBongo, chars "drum.bongo"),
    (.drumBougarabou, chars "drum.bougarabou"), (.drumBuffaloDrum, chars "drum.buffalo-drum"), (.drumCajon, chars "drum.cajon"),
    (.drumChenda, chars "drum.chenda"), (.drumChuDaiko, chars "drum.chu-daiko"), (.drumConga, chars "drum.conga"), (.drumCuica, chars "drum.cuica"),
    (.drumDabakan, chars "drum.dabakan"), (.drumDaff, chars "drum.daff"), (.drumDafli, chars "drum.dafli"), (.drumDaibyosi, chars "drum.daibyosi"),
    (.drumDamroo, chars "drum.damroo"), (.drumDarabuka, chars "drum.darabuka"), (.drumDef, chars "drum.def"), (.drumDhol, chars "drum.dhol"),
    (.drumDholak, chars "drum.dholak"), (.drumDjembe, chars "drum.djembe"), (.drumDoira, chars "drum.doira"), (.drumDondo, chars "drum.dondo"),
    (.drumDounDounBa, chars "drum.doun-doun-ba"), (.drumDuff, chars "drum.duff"), (.drumDumbek, chars "drum.dumbek"),
    (.drumFontomfrom, chars "drum.fontomfrom"), (.drumFrameDrum, chars "drum.frame-drum"), (.drumFrameDrumArabian, chars "drum.frame-drum.arabian"),
    (.drumGeduk, chars "drum.geduk"), (.drumGhatam, chars "drum.ghatam"), (.drumGome, chars "drum.gome"), (.drumGroup, chars "drum.group"),
    (.drumGroupChinese, chars "drum.group.chinese"), (.drumGroupEwe, chars "drum.group.ewe"), (.drumGroupIndian, chars "drum.group.indian"),
    (.drumGroupSet, chars "drum.group.set"), (.drumHandDrum, chars "drum.hand-drum"), (.drumHiraDaiko, chars "drum.hira-daiko"),
    (.drumIbo, chars "drum.ibo"), (.drumIgihumurizo, chars "drum.igihumurizo"), (.drumInyahura, chars "drum.inyahura"),
    (.drumIshakwe, chars "drum.ishakwe"), (.drumJangGu, chars "drum.jang-gu"), (.drumKagan, chars "drum.kagan"), (.drumKakko, chars "drum.kakko"),
    (.drumKanjira, chars "drum.kanjira"), (.drumKendhang, chars "drum.kendhang")]

/-- Members, private/mx/core/PlaybackSound.h 137-196. -/
def members2 : List (Core.PlaybackSound × Str) := [
    (.drumKendhangAgeng, chars "drum.kendhang.ageng"), (.drumKendhangCiblon, chars "drum.kendhang.ciblon"), (.drumKenkeni, chars "drum.kenkeni"),
    (.drumKhol, chars "drum.khol"), (.drumKickDrum, chars "drum.kick-drum"), (.drumKidi, chars "drum.kidi"), (.drumKoDaiko, chars "drum.ko-daiko"),
    (.drumKpanlogo, chars "drum.kpanlogo"), (.drumKudum, chars "drum.kudum"), (.drumLambeg, chars "drum.lambeg"),
    (.drumLionDrum, chars "drum.lion-drum"), (.drumLogDrum, chars "drum.log-drum"), (.drumLogDrumAfrican, chars "drum.log-drum.african"),
    (.drumLogDrumNative, chars "drum.log-drum.native"), (.drumLogDrumNigerian, chars "drum.log-drum.nigerian"), (.drumMadal, chars "drum.madal"),
    (.drumMaddale, chars "drum.maddale"), (.drumMridangam, chars "drum.mridangam"), (.drumNaal, chars "drum.naal"),
    (.drumNagadoDaiko, chars "drum.nagado-daiko"), (.drumNagara, chars "drum.nagara"), (.drumNaqara, chars "drum.naqara"),
    (.drumODaiko, chars "drum.o-daiko"), (.drumOkawa, chars "drum.okawa"), (.drumOkedoDaiko, chars "drum.okedo-daiko"),
    (.drumPahuHula, chars "drum.pahu-hula"), (.drumPakhawaj, chars "drum.pakhawaj"), (.drumPandeiro, chars "drum.pandeiro"),
    (.drumPandero, chars "drum.pandero"), (.drumPowwow, chars "drum.powwow"), (.drumPueblo, chars "drum.pueblo"),
    (.drumRepinique, chars "drum.repinique"), (.drumRiq, chars "drum.riq"), (.drumRototom, chars "drum.rototom"), (.drumSabar, chars "drum.sabar"),
    (.drumSakara, chars "drum.sakara"), (.drumSampho, chars "drum.sampho"), (.drumSangban, chars "drum.sangban"),
    (.drumShimeDaiko, chars "drum.shime-daiko"), (.drumSlitDrum, chars "drum.slit-drum"), (.drumSlitDrumKrin, chars "drum.slit-drum.krin"),
    (.drumSnareDrum, chars "drum.snare-drum"), (.drumSnareDrumElectric, chars "drum.snare-drum.electric"), (.drumSogo, chars "drum.sogo"),
    (.drumSurdo, chars "drum.surdo"), (.drumTabla, chars "drum.tabla"), (.drumTablaBayan, chars "drum.tabla.bayan"),
    (.drumTablaDayan, chars "drum.tabla.dayan"), (.drumTaiko, chars "drum.taiko"), (.drumTalking, chars "drum.talking"),
    (.drumTama, chars "drum.tama"), (.drumTamborita, chars "drum.tamborita"), (.drumTambourine, chars "drum.tambourine"),
    (.drumTamte, chars "drum.tamte"), (.drumTangku, chars "drum.tangku"), (.drumTanTan, chars "drum.tan-tan"), (.drumTaphon, chars "drum.taphon"),
    (.drumTar, chars "drum.tar"), (.drumTasha, chars "drum.tasha"), (.drumTenorDrum, chars "drum.tenor-drum")]

/-- Members, private/mx/core/PlaybackSound.h 197-256. -/
def members3 : List (Core.PlaybackSound × Str) := [
    (.drumTeponaxtli, chars "drum.teponaxtli"), (.drumThavil, chars "drum.thavil"), (.drumTheBox, chars "drum.the-box"),
    (.drumTimbale, chars "drum.timbale"), (.drumTimpani, chars "drum.timpani"), (.drumTinaja, chars "drum.tinaja"), (.drumToere, chars "drum.toere"),
    (.drumTombak, chars "drum.tombak"), (.drumTomTom, chars "drum.tom-tom"), (.drumTomTomSynth, chars "drum.tom-tom.synth"),
    (.drumTsuzumi, chars "drum.tsuzumi"), (.drumTumbak, chars "drum.tumbak"), (.drumUchiwaDaiko, chars "drum.uchiwa-daiko"),
    (.drumUdaku, chars "drum.udaku"), (.drumUdu, chars "drum.udu"), (.drumZarb, chars "drum.zarb"), (.effectAeolianHarp, chars "effect.aeolian-harp"),
    (.effectAirHorn, chars "effect.air-horn"), (.effectApplause, chars "effect.applause"), (.effectBassStringSlap, chars "effect.bass-string-slap"),
    (.effectBird, chars "effect.bird"), (.effectBirdNightingale, chars "effect.bird.nightingale"), (.effectBirdTweet, chars "effect.bird.tweet"),
    (.effectBreath, chars "effect.breath"), (.effectBubble, chars "effect.bubble"), (.effectBullroarer, chars "effect.bullroarer"),
    (.effectBurst, chars "effect.burst"), (.effectCar, chars "effect.car"), (.effectCarCrash, chars "effect.car.crash"),
    (.effectCarEngine, chars "effect.car.engine"), (.effectCarPass, chars "effect.car.pass"), (.effectCarStop, chars "effect.car.stop"),
    (.effectCrickets, chars "effect.crickets"), (.effectDog, chars "effect.dog"), (.effectDoorCreak, chars "effect.door.creak"),
    (.effectDoorSlam, chars "effect.door.slam"), (.effectExplosion, chars "effect.explosion"), (.effectFluteKeyClick, chars "effect.flute-key-click"),
    (.effectFootsteps, chars "effect.footsteps"), (.effectFrogs, chars "effect.frogs"), (.effectGuitarCutting, chars "effect.guitar-cutting"),
    (.effectGuitarFret, chars "effect.guitar-fret"), (.effectGunshot, chars "effect.gunshot"), (.effectHandClap, chars "effect.hand-clap"),
    (.effectHeartbeat, chars "effect.heartbeat"), (.effectHelicopter, chars "effect.helicopter"), (.effectHighQ, chars "effect.high-q"),
    (.effectHorseGallop, chars "effect.horse-gallop"), (.effectJetPlane, chars "effect.jet-plane"), (.effectLaserGun, chars "effect.laser-gun"),
    (.effectLaugh, chars "effect.laugh"), (.effectLionsRoar, chars "effect.lions-roar"), (.effectMachineGun, chars "effect.machine-gun"),
    (.effectMarchingMachine, chars "effect.marching-machine"), (.effectMetronomeBell, chars "effect.metronome-bell"),
    (.effectMetronomeClick, chars "effect.metronome-click"), (.effectPat, chars "effect.pat"), (.effectPunch, chars "effect.punch"),
    (.effectRain, chars "effect.rain"), (.effectScratch, chars "effect.scratch")]

/-- Members, private/mx/core/PlaybackSound.h 257-316. -/
def members4 : List (Core.PlaybackSound × Str) := [
    (.effectScream, chars "effect.scream"), (.effectSeashore, chars "effect.seashore"), (.effectSiren, chars "effect.siren"),
    (.effectSlap, chars "effect.slap"), (.effectSnap, chars "effect.snap"), (.effectStamp, chars "effect.stamp"),
    (.effectStarship, chars "effect.starship"), (.effectStream, chars "effect.stream"), (.effectTelephoneRing, chars "effect.telephone-ring"),
    (.effectThunder, chars "effect.thunder"), (.effectTrain, chars "effect.train"), (.effectTrashCan, chars "effect.trash-can"),
    (.effectWhip, chars "effect.whip"), (.effectWhistle, chars "effect.whistle"), (.effectWhistleMouthSiren, chars "effect.whistle.mouth-siren"),
    (.effectWhistlePolice, chars "effect.whistle.police"), (.effectWhistleSlide, chars "effect.whistle.slide"),
    (.effectWhistleTrain, chars "effect.whistle.train"), (.effectWind, chars "effect.wind"), (.keyboardAccordion, chars "keyboard.accordion"),
    (.keyboardBandoneon, chars "keyboard.bandoneon"), (.keyboardCelesta, chars "keyboard.celesta"),
    (.keyboardClavichord, chars "keyboard.clavichord"), (.keyboardClavichordSynth, chars "keyboard.clavichord.synth"),
    (.keyboardConcertina, chars "keyboard.concertina"), (.keyboardFortepiano, chars "keyboard.fortepiano"),
    (.keyboardHarmonium, chars "keyboard.harmonium"), (.keyboardHarpsichord, chars "keyboard.harpsichord"),
    (.keyboardOndesMartenot, chars "keyboard.ondes-martenot"), (.keyboardOrgan, chars "keyboard.organ"),
    (.keyboardOrganDrawbar, chars "keyboard.organ.drawbar"), (.keyboardOrganPercussive, chars "keyboard.organ.percussive"),
    (.keyboardOrganPipe, chars "keyboard.organ.pipe"), (.keyboardOrganReed, chars "keyboard.organ.reed"),
    (.keyboardOrganRotary, chars "keyboard.organ.rotary"), (.keyboardPiano, chars "keyboard.piano"),
    (.keyboardPianoElectric, chars "keyboard.piano.electric"), (.keyboardPianoGrand, chars "keyboard.piano.grand"),
    (.keyboardPianoHonkyTonk, chars "keyboard.piano.honky-tonk"), (.keyboardPianoPrepared, chars "keyboard.piano.prepared"),
    (.keyboardPianoToy, chars "keyboard.piano.toy"), (.keyboardPianoUpright, chars "keyboard.piano.upright"),
    (.keyboardVirginal, chars "keyboard.virginal"), (.metalAdodo, chars "metal.adodo"), (.metalAnvil, chars "metal.anvil"),
    (.metalBabendil, chars "metal.babendil"), (.metalBellsAgogo, chars "metal.bells.agogo"), (.metalBellsAlmglocken, chars "metal.bells.almglocken"),
    (.metalBellsBellPlate, chars "metal.bells.bell-plate"), (.metalBellsBellTree, chars "metal.bells.bell-tree"),
    (.metalBellsCarillon, chars "metal.bells.carillon"), (.metalBellsChimes, chars "metal.bells.chimes"),
    (.metalBellsChimta, chars "metal.bells.chimta"), (.metalBellsChippli, chars "metal.bells.chippli"),
    (.metalBellsChurch, chars "metal.bells.church"), (.metalBellsCowbell, chars "metal.bells.cowbell"),
    (.metalBellsDawuro, chars "metal.bells.dawuro"), (.metalBellsGankokwe, chars "metal.bells.gankokwe"),
    (.metalBellsGhungroo, chars "metal.bells.ghungroo"), (.metalBellsHatheli, chars "metal.bells.hatheli")]

/-- Members, private/mx/core/PlaybackSound.h 317-376. -/
def members5 : List (Core.PlaybackSound × Str) := [
    (.metalBellsJingleBell, chars "metal.bells.jingle-bell"), (.metalBellsKhartal, chars "metal.bells.khartal"),
    (.metalBellsMarkTree, chars "metal.bells.mark-tree"), (.metalBellsSistrum, chars "metal.bells.sistrum"),
    (.metalBellsSleighBells, chars "metal.bells.sleigh-bells"), (.metalBellsTemple, chars "metal.bells.temple"),
    (.metalBellsTibetan, chars "metal.bells.tibetan"), (.metalBellsTinklebell, chars "metal.bells.tinklebell"),
    (.metalBellsTrychel, chars "metal.bells.trychel"), (.metalBellsWindChimes, chars "metal.bells.wind-chimes"),
    (.metalBellsZills, chars "metal.bells.zills"), (.metalBerimbau, chars "metal.berimbau"), (.metalBrakeDrums, chars "metal.brake-drums"),
    (.metalCrotales, chars "metal.crotales"), (.metalCymbalBo, chars "metal.cymbal.bo"), (.metalCymbalCengCeng, chars "metal.cymbal.ceng-ceng"),
    (.metalCymbalChabara, chars "metal.cymbal.chabara"), (.metalCymbalChinese, chars "metal.cymbal.chinese"),
    (.metalCymbalChing, chars "metal.cymbal.ching"), (.metalCymbalClash, chars "metal.cymbal.clash"), (.metalCymbalCrash, chars "metal.cymbal.crash"),
    (.metalCymbalFinger, chars "metal.cymbal.finger"), (.metalCymbalHand, chars "metal.cymbal.hand"), (.metalCymbalKesi, chars "metal.cymbal.kesi"),
    (.metalCymbalManjeera, chars "metal.cymbal.manjeera"), (.metalCymbalReverse, chars "metal.cymbal.reverse"),
    (.metalCymbalRide, chars "metal.cymbal.ride"), (.metalCymbalSizzle, chars "metal.cymbal.sizzle"),
    (.metalCymbalSplash, chars "metal.cymbal.splash"), (.metalCymbalSuspended, chars "metal.cymbal.suspended"),
    (.metalCymbalTebyoshi, chars "metal.cymbal.tebyoshi"), (.metalCymbalTibetan, chars "metal.cymbal.tibetan"),
    (.metalCymbalTingsha, chars "metal.cymbal.tingsha"), (.metalFlexatone, chars "metal.flexatone"), (.metalGong, chars "metal.gong"),
    (.metalGongAgeng, chars "metal.gong.ageng"), (.metalGongAgung, chars "metal.gong.agung"), (.metalGongChanchiki, chars "metal.gong.chanchiki"),
    (.metalGongChinese, chars "metal.gong.chinese"), (.metalGongGandingan, chars "metal.gong.gandingan"),
    (.metalGongKempul, chars "metal.gong.kempul"), (.metalGongKempyang, chars "metal.gong.kempyang"), (.metalGongKetuk, chars "metal.gong.ketuk"),
    (.metalGongKkwenggwari, chars "metal.gong.kkwenggwari"), (.metalGongLuo, chars "metal.gong.luo"), (.metalGongSinging, chars "metal.gong.singing"),
    (.metalGongThai, chars "metal.gong.thai"), (.metalGuira, chars "metal.guira"), (.metalHang, chars "metal.hang"),
    (.metalHiHat, chars "metal.hi-hat"), (.metalJawHarp, chars "metal.jaw-harp"), (.metalKengong, chars "metal.kengong"),
    (.metalMurchang, chars "metal.murchang"), (.metalMusicalSaw, chars "metal.musical-saw"), (.metalSingingBowl, chars "metal.singing-bowl"),
    (.metalSpoons, chars "metal.spoons"), (.metalSteelDrums, chars "metal.steel-drums"), (.metalTamtam, chars "metal.tamtam"),
    (.metalThundersheet, chars "metal.thundersheet"), (.metalTriangle, chars "metal.triangle")]

/-- Members, private/mx/core/PlaybackSound.h 377-436. -/
def members6 : List (Core.PlaybackSound × Str) := [
    (.metalWashboard, chars "metal.washboard"), (.pitchedPercussionAngklung, chars "pitched-percussion.angklung"),
    (.pitchedPercussionBalafon, chars "pitched-percussion.balafon"), (.pitchedPercussionBellLyre, chars "pitched-percussion.bell-lyre"),
    (.pitchedPercussionBells, chars "pitched-percussion.bells"), (.pitchedPercussionBianqing, chars "pitched-percussion.bianqing"),
    (.pitchedPercussionBianzhong, chars "pitched-percussion.bianzhong"), (.pitchedPercussionBonang, chars "pitched-percussion.bonang"),
    (.pitchedPercussionCimbalom, chars "pitched-percussion.cimbalom"), (.pitchedPercussionCrystalGlasses, chars "pitched-percussion.crystal-glasses"),
    (.pitchedPercussionDanTamThapLuc, chars "pitched-percussion.dan-tam-thap-luc"),
    (.pitchedPercussionFangxiang, chars "pitched-percussion.fangxiang"),
    (.pitchedPercussionGandinganAKayo, chars "pitched-percussion.gandingan-a-kayo"), (.pitchedPercussionGangsa, chars "pitched-percussion.gangsa"),
    (.pitchedPercussionGender, chars "pitched-percussion.gender"), (.pitchedPercussionGiying, chars "pitched-percussion.giying"),
    (.pitchedPercussionGlassHarmonica, chars "pitched-percussion.glass-harmonica"),
    (.pitchedPercussionGlockenspiel, chars "pitched-percussion.glockenspiel"),
    (.pitchedPercussionGlockenspielAlto, chars "pitched-percussion.glockenspiel.alto"),
    (.pitchedPercussionGlockenspielSoprano, chars "pitched-percussion.glockenspiel.soprano"),
    (.pitchedPercussionGyil, chars "pitched-percussion.gyil"), (.pitchedPercussionHammerDulcimer, chars "pitched-percussion.hammer-dulcimer"),
    (.pitchedPercussionHandbells, chars "pitched-percussion.handbells"), (.pitchedPercussionKalimba, chars "pitched-percussion.kalimba"),
    (.pitchedPercussionKantil, chars "pitched-percussion.kantil"), (.pitchedPercussionKhim, chars "pitched-percussion.khim"),
    (.pitchedPercussionKulintang, chars "pitched-percussion.kulintang"),
    (.pitchedPercussionKulintangAKayo, chars "pitched-percussion.kulintang-a-kayo"),
    (.pitchedPercussionKulintangATiniok, chars "pitched-percussion.kulintang-a-tiniok"),
    (.pitchedPercussionLikembe, chars "pitched-percussion.likembe"), (.pitchedPercussionLuntang, chars "pitched-percussion.luntang"),
    (.pitchedPercussionMarimba, chars "pitched-percussion.marimba"), (.pitchedPercussionMarimbaBass, chars "pitched-percussion.marimba.bass"),
    (.pitchedPercussionMbira, chars "pitched-percussion.mbira"), (.pitchedPercussionMbiraArray, chars "pitched-percussion.mbira.array"),
    (.pitchedPercussionMetallophone, chars "pitched-percussion.metallophone"),
    (.pitchedPercussionMetallophoneAlto, chars "pitched-percussion.metallophone.alto"),
    (.pitchedPercussionMetallophoneBass, chars "pitched-percussion.metallophone.bass"),
    (.pitchedPercussionMetallophoneSoprano, chars "pitched-percussion.metallophone.soprano"),
    (.pitchedPercussionMusicBox, chars "pitched-percussion.music-box"), (.pitchedPercussionPelogPanerus, chars "pitched-percussion.pelog-panerus"),
    (.pitchedPercussionPemade, chars "pitched-percussion.pemade"), (.pitchedPercussionPenyacah, chars "pitched-percussion.penyacah"),
    (.pitchedPercussionRanatEk, chars "pitched-percussion.ranat.ek"), (.pitchedPercussionRanatEkLek, chars "pitched-percussion.ranat.ek-lek"),
    (.pitchedPercussionRanatThum, chars "pitched-percussion.ranat.thum"), (.pitchedPercussionRanatThumLek, chars "pitched-percussion.ranat.thum-lek"),
    (.pitchedPercussionReyong, chars "pitched-percussion.reyong"), (.pitchedPercussionSanza, chars "pitched-percussion.sanza"),
    (.pitchedPercussionSaronBarung, chars "pitched-percussion.saron-barung"),
    (.pitchedPercussionSaronDemong, chars "pitched-percussion.saron-demong"),
    (.pitchedPercussionSaronPanerus, chars "pitched-percussion.saron-panerus"),
    (.pitchedPercussionSlendroPanerus, chars "pitched-percussion.slendro-panerus"), (.pitchedPercussionSlentem, chars "pitched-percussion.slentem"),
    (.pitchedPercussionTsymbaly, chars "pitched-percussion.tsymbaly"), (.pitchedPercussionTubes, chars "pitched-percussion.tubes"),
    (.pitchedPercussionTubularBells, chars "pitched-percussion.tubular-bells"), (.pitchedPercussionVibraphone, chars "pitched-percussion.vibraphone"),
    (.pitchedPercussionXylophone, chars "pitched-percussion.xylophone"), (.pitchedPercussionXylophoneAlto, chars "pitched-percussion.xylophone.alto")]

/-- Members, private/mx/core/PlaybackSound.h 437-496. -/
def members7 : List (Core.PlaybackSound × Str) := [
    (.pitchedPercussionXylophoneBass, chars "pitched-percussion.xylophone.bass"),
    (.pitchedPercussionXylophoneSoprano, chars "pitched-percussion.xylophone.soprano"),
    (.pitchedPercussionXylorimba, chars "pitched-percussion.xylorimba"), (.pitchedPercussionYangqin, chars "pitched-percussion.yangqin"),
    (.pluckArchlute, chars "pluck.archlute"), (.pluckAutoharp, chars "pluck.autoharp"), (.pluckBaglama, chars "pluck.baglama"),
    (.pluckBajo, chars "pluck.bajo"), (.pluckBalalaika, chars "pluck.balalaika"), (.pluckBalalaikaAlto, chars "pluck.balalaika.alto"),
    (.pluckBalalaikaBass, chars "pluck.balalaika.bass"), (.pluckBalalaikaContrabass, chars "pluck.balalaika.contrabass"),
    (.pluckBalalaikaPiccolo, chars "pluck.balalaika.piccolo"), (.pluckBalalaikaPrima, chars "pluck.balalaika.prima"),
    (.pluckBalalaikaSecunda, chars "pluck.balalaika.secunda"), (.pluckBandola, chars "pluck.bandola"), (.pluckBandura, chars "pluck.bandura"),
    (.pluckBandurria, chars "pluck.bandurria"), (.pluckBanjo, chars "pluck.banjo"), (.pluckBanjoTenor, chars "pluck.banjo.tenor"),
    (.pluckBanjolele, chars "pluck.banjolele"), (.pluckBarbat, chars "pluck.barbat"), (.pluckBass, chars "pluck.bass"),
    (.pluckBassAcoustic, chars "pluck.bass.acoustic"), (.pluckBassBolon, chars "pluck.bass.bolon"), (.pluckBassElectric, chars "pluck.bass.electric"),
    (.pluckBassFretless, chars "pluck.bass.fretless"), (.pluckBassGuitarron, chars "pluck.bass.guitarron"),
    (.pluckBassSynth, chars "pluck.bass.synth"), (.pluckBassSynthLead, chars "pluck.bass.synth.lead"),
    (.pluckBassWashtub, chars "pluck.bass.washtub"), (.pluckBassWhamola, chars "pluck.bass.whamola"), (.pluckBegena, chars "pluck.begena"),
    (.pluckBiwa, chars "pluck.biwa"), (.pluckBordonua, chars "pluck.bordonua"), (.pluckBouzouki, chars "pluck.bouzouki"),
    (.pluckBouzoukiIrish, chars "pluck.bouzouki.irish"), (.pluckCelticHarp, chars "pluck.celtic-harp"), (.pluckCharango, chars "pluck.charango"),
    (.pluckChitarraBattente, chars "pluck.chitarra-battente"), (.pluckCithara, chars "pluck.cithara"), (.pluckCittern, chars "pluck.cittern"),
    (.pluckCuatro, chars "pluck.cuatro"), (.pluckDanBau, chars "pluck.dan-bau"), (.pluckDanNguyet, chars "pluck.dan-nguyet"),
    (.pluckDanTranh, chars "pluck.dan-tranh"), (.pluckDanTyBa, chars "pluck.dan-ty-ba"), (.pluckDiddleyBow, chars "pluck.diddley-bow"),
    (.pluckDomra, chars "pluck.domra"), (.pluckDomu, chars "pluck.domu"), (.pluckDulcimer, chars "pluck.dulcimer"),
    (.pluckDutar, chars "pluck.dutar"), (.pluckDuxianqin, chars "pluck.duxianqin"), (.pluckEktara, chars "pluck.ektara"),
    (.pluckGeomungo, chars "pluck.geomungo"), (.pluckGottuvadhyam, chars "pluck.gottuvadhyam"), (.pluckGuitar, chars "pluck.guitar"),
    (.pluckGuitarAcoustic, chars "pluck.guitar.acoustic"), (.pluckGuitarElectric, chars "pluck.guitar.electric"),
    (.pluckGuitarNylonString, chars "pluck.guitar.nylon-string")]

/-- Members, private/mx/core/PlaybackSound.h 497-556. -/
def members8 : List (Core.PlaybackSound × Str) := [
    (.pluckGuitarPedalSteel, chars "pluck.guitar.pedal-steel"), (.pluckGuitarPortuguese, chars "pluck.guitar.portuguese"),
    (.pluckGuitarRequinto, chars "pluck.guitar.requinto"), (.pluckGuitarResonator, chars "pluck.guitar.resonator"),
    (.pluckGuitarSteelString, chars "pluck.guitar.steel-string"), (.pluckGuitjo, chars "pluck.guitjo"),
    (.pluckGuitjoDoubleNeck, chars "pluck.guitjo.double-neck"), (.pluckGuqin, chars "pluck.guqin"), (.pluckGuzheng, chars "pluck.guzheng"),
    (.pluckGuzhengChoazhou, chars "pluck.guzheng.choazhou"), (.pluckHarp, chars "pluck.harp"), (.pluckHarpGuitar, chars "pluck.harp-guitar"),
    (.pluckHuapanguera, chars "pluck.huapanguera"), (.pluckJaranaHuasteca, chars "pluck.jarana-huasteca"),
    (.pluckJaranaJarocha, chars "pluck.jarana-jarocha"), (.pluckJaranaJarochaMosquito, chars "pluck.jarana-jarocha.mosquito"),
    (.pluckJaranaJarochaPrimera, chars "pluck.jarana-jarocha.primera"), (.pluckJaranaJarochaSegunda, chars "pluck.jarana-jarocha.segunda"),
    (.pluckJaranaJarochaTercera, chars "pluck.jarana-jarocha.tercera"), (.pluckKabosy, chars "pluck.kabosy"), (.pluckKantele, chars "pluck.kantele"),
    (.pluckKanun, chars "pluck.kanun"), (.pluckKayagum, chars "pluck.kayagum"), (.pluckKobza, chars "pluck.kobza"),
    (.pluckKomuz, chars "pluck.komuz"), (.pluckKora, chars "pluck.kora"), (.pluckKoto, chars "pluck.koto"), (.pluckKutiyapi, chars "pluck.kutiyapi"),
    (.pluckLangeleik, chars "pluck.langeleik"), (.pluckLaud, chars "pluck.laud"), (.pluckLute, chars "pluck.lute"), (.pluckLyre, chars "pluck.lyre"),
    (.pluckMandobass, chars "pluck.mandobass"), (.pluckMandocello, chars "pluck.mandocello"), (.pluckMandola, chars "pluck.mandola"),
    (.pluckMandolin, chars "pluck.mandolin"), (.pluckMandolinOctave, chars "pluck.mandolin.octave"), (.pluckMandora, chars "pluck.mandora"),
    (.pluckMandore, chars "pluck.mandore"), (.pluckMarovany, chars "pluck.marovany"), (.pluckMusicalBow, chars "pluck.musical-bow"),
    (.pluckNgoni, chars "pluck.ngoni"), (.pluckOud, chars "pluck.oud"), (.pluckPipa, chars "pluck.pipa"), (.pluckPsaltery, chars "pluck.psaltery"),
    (.pluckRuan, chars "pluck.ruan"), (.pluckSallaneh, chars "pluck.sallaneh"), (.pluckSanshin, chars "pluck.sanshin"),
    (.pluckSantoor, chars "pluck.santoor"), (.pluckSanxian, chars "pluck.sanxian"), (.pluckSarod, chars "pluck.sarod"),
    (.pluckSaung, chars "pluck.saung"), (.pluckSaz, chars "pluck.saz"), (.pluckSe, chars "pluck.se"), (.pluckSetar, chars "pluck.setar"),
    (.pluckShamisen, chars "pluck.shamisen"), (.pluckSitar, chars "pluck.sitar"), (.pluckSynth, chars "pluck.synth"),
    (.pluckSynthCharang, chars "pluck.synth.charang"), (.pluckSynthChiff, chars "pluck.synth.chiff")]

/-- Members, private/mx/core/PlaybackSound.h 557-616. -/
def members9 : List (Core.PlaybackSound × Str) := [
    (.pluckSynthStick, chars "pluck.synth.stick"), (.pluckTambura, chars "pluck.tambura"), (.pluckTamburaBulgarian, chars "pluck.tambura.bulgarian"),
    (.pluckTamburaFemale, chars "pluck.tambura.female"), (.pluckTamburaMale, chars "pluck.tambura.male"), (.pluckTar, chars "pluck.tar"),
    (.pluckTheorbo, chars "pluck.theorbo"), (.pluckTimple, chars "pluck.timple"), (.pluckTiple, chars "pluck.tiple"),
    (.pluckTres, chars "pluck.tres"), (.pluckUkulele, chars "pluck.ukulele"), (.pluckUkuleleTenor, chars "pluck.ukulele.tenor"),
    (.pluckValiha, chars "pluck.valiha"), (.pluckVeena, chars "pluck.veena"), (.pluckVeenaMohan, chars "pluck.veena.mohan"),
    (.pluckVeenaRudra, chars "pluck.veena.rudra"), (.pluckVeenaVichitra, chars "pluck.veena.vichitra"), (.pluckVihuela, chars "pluck.vihuela"),
    (.pluckVihuelaMexican, chars "pluck.vihuela.mexican"), (.pluckXalam, chars "pluck.xalam"), (.pluckYueqin, chars "pluck.yueqin"),
    (.pluckZither, chars "pluck.zither"), (.pluckZitherOvertone, chars "pluck.zither.overtone"), (.rattleAfoxe, chars "rattle.afoxe"),
    (.rattleBirds, chars "rattle.birds"), (.rattleCabasa, chars "rattle.cabasa"), (.rattleCaxixi, chars "rattle.caxixi"),
    (.rattleCog, chars "rattle.cog"), (.rattleGanza, chars "rattle.ganza"), (.rattleHosho, chars "rattle.hosho"),
    (.rattleJawbone, chars "rattle.jawbone"), (.rattleKayamba, chars "rattle.kayamba"), (.rattleKpokoKpoko, chars "rattle.kpoko-kpoko"),
    (.rattleLavaStones, chars "rattle.lava-stones"), (.rattleMaraca, chars "rattle.maraca"), (.rattleRainStick, chars "rattle.rain-stick"),
    (.rattleRatchet, chars "rattle.ratchet"), (.rattleRattle, chars "rattle.rattle"), (.rattleShaker, chars "rattle.shaker"),
    (.rattleShakerEgg, chars "rattle.shaker.egg"), (.rattleShekere, chars "rattle.shekere"), (.rattleSistre, chars "rattle.sistre"),
    (.rattleTelevi, chars "rattle.televi"), (.rattleVibraslap, chars "rattle.vibraslap"), (.rattleWasembe, chars "rattle.wasembe"),
    (.stringsAjaeng, chars "strings.ajaeng"), (.stringsArpeggione, chars "strings.arpeggione"), (.stringsBaryton, chars "strings.baryton"),
    (.stringsCello, chars "strings.cello"), (.stringsCelloPiccolo, chars "strings.cello.piccolo"), (.stringsContrabass, chars "strings.contrabass"),
    (.stringsCrwth, chars "strings.crwth"), (.stringsDanGao, chars "strings.dan-gao"), (.stringsDihu, chars "strings.dihu"),
    (.stringsErhu, chars "strings.erhu"), (.stringsErxian, chars "strings.erxian"), (.stringsEsraj, chars "strings.esraj"),
    (.stringsFiddle, chars "strings.fiddle"), (.stringsFiddleHardanger, chars "strings.fiddle.hardanger"), (.stringsGadulka, chars "strings.gadulka")]

/-- Members, private/mx/core/PlaybackSound.h 617-676. -/
def members10 : List (Core.PlaybackSound × Str) := [
    (.stringsGaohu, chars "strings.gaohu"), (.stringsGehu, chars "strings.gehu"), (.stringsGroup, chars "strings.group"),
    (.stringsGroupSynth, chars "strings.group.synth"), (.stringsHaegeum, chars "strings.haegeum"), (.stringsHurdyGurdy, chars "strings.hurdy-gurdy"),
    (.stringsIgil, chars "strings.igil"), (.stringsKamancha, chars "strings.kamancha"), (.stringsKokyu, chars "strings.kokyu"),
    (.stringsLaruan, chars "strings.laruan"), (.stringsLeiqin, chars "strings.leiqin"), (.stringsLirone, chars "strings.lirone"),
    (.stringsLyraByzantine, chars "strings.lyra.byzantine"), (.stringsLyraCretan, chars "strings.lyra.cretan"),
    (.stringsMorinKhuur, chars "strings.morin-khuur"), (.stringsNyckelharpa, chars "strings.nyckelharpa"),
    (.stringsOctobass, chars "strings.octobass"), (.stringsRebab, chars "strings.rebab"), (.stringsRebec, chars "strings.rebec"),
    (.stringsSarangi, chars "strings.sarangi"), (.stringsStrohViolin, chars "strings.stroh-violin"),
    (.stringsTrombaMarina, chars "strings.tromba-marina"), (.stringsVielle, chars "strings.vielle"), (.stringsViol, chars "strings.viol"),
    (.stringsViolAlto, chars "strings.viol.alto"), (.stringsViolBass, chars "strings.viol.bass"), (.stringsViolTenor, chars "strings.viol.tenor"),
    (.stringsViolTreble, chars "strings.viol.treble"), (.stringsViolViolone, chars "strings.viol.violone"), (.stringsViola, chars "strings.viola"),
    (.stringsViolaDamore, chars "strings.viola-damore"), (.stringsViolin, chars "strings.violin"),
    (.stringsViolonoPiccolo, chars "strings.violono.piccolo"), (.stringsViolotta, chars "strings.violotta"),
    (.stringsYayliTanbur, chars "strings.yayli-tanbur"), (.stringsYazheng, chars "strings.yazheng"), (.stringsZhonghu, chars "strings.zhonghu"),
    (.synthEffects, chars "synth.effects"), (.synthEffectsAtmosphere, chars "synth.effects.atmosphere"),
    (.synthEffectsBrightness, chars "synth.effects.brightness"), (.synthEffectsCrystal, chars "synth.effects.crystal"),
    (.synthEffectsEchoes, chars "synth.effects.echoes"), (.synthEffectsGoblins, chars "synth.effects.goblins"),
    (.synthEffectsRain, chars "synth.effects.rain"), (.synthEffectsSciFi, chars "synth.effects.sci-fi"),
    (.synthEffectsSoundtrack, chars "synth.effects.soundtrack"), (.synthGroup, chars "synth.group"), (.synthGroupFifths, chars "synth.group.fifths"),
    (.synthGroupOrchestra, chars "synth.group.orchestra"), (.synthPad, chars "synth.pad"), (.synthPadBowed, chars "synth.pad.bowed"),
    (.synthPadChoir, chars "synth.pad.choir"), (.synthPadHalo, chars "synth.pad.halo"), (.synthPadMetallic, chars "synth.pad.metallic"),
    (.synthPadPolysynth, chars "synth.pad.polysynth"), (.synthPadSweep, chars "synth.pad.sweep"), (.synthPadWarm, chars "synth.pad.warm"),
    (.synthTheremin, chars "synth.theremin"), (.synthToneSawtooth, chars "synth.tone.sawtooth"), (.synthToneSine, chars "synth.tone.sine")]

/-- Members, private/mx/core/PlaybackSound.h 677-736. -/
def members11 : List (Core.PlaybackSound × Str) := [
    (.synthToneSquare, chars "synth.tone.square"), (.voiceAa, chars "voice.aa"), (.voiceAlto, chars "voice.alto"), (.voiceAw, chars "voice.aw"),
    (.voiceBaritone, chars "voice.baritone"), (.voiceBass, chars "voice.bass"), (.voiceChild, chars "voice.child"),
    (.voiceCountertenor, chars "voice.countertenor"), (.voiceDoo, chars "voice.doo"), (.voiceEe, chars "voice.ee"),
    (.voiceFemale, chars "voice.female"), (.voiceKazoo, chars "voice.kazoo"), (.voiceMale, chars "voice.male"),
    (.voiceMezzoSoprano, chars "voice.mezzo-soprano"), (.voiceMm, chars "voice.mm"), (.voiceOo, chars "voice.oo"),
    (.voicePercussion, chars "voice.percussion"), (.voicePercussionBeatbox, chars "voice.percussion.beatbox"), (.voiceSoprano, chars "voice.soprano"),
    (.voiceSynth, chars "voice.synth"), (.voiceTalkBox, chars "voice.talk-box"), (.voiceTenor, chars "voice.tenor"),
    (.voiceVocals, chars "voice.vocals"), (.windFlutesBansuri, chars "wind.flutes.bansuri"),
    (.windFlutesBlownBottle, chars "wind.flutes.blown-bottle"), (.windFlutesCalliope, chars "wind.flutes.calliope"),
    (.windFlutesDanso, chars "wind.flutes.danso"), (.windFlutesDiZi, chars "wind.flutes.di-zi"), (.windFlutesDvojnice, chars "wind.flutes.dvojnice"),
    (.windFlutesFife, chars "wind.flutes.fife"), (.windFlutesFlageolet, chars "wind.flutes.flageolet"), (.windFlutesFlute, chars "wind.flutes.flute"),
    (.windFlutesFluteAlto, chars "wind.flutes.flute.alto"), (.windFlutesFluteBass, chars "wind.flutes.flute.bass"),
    (.windFlutesFluteContraAlto, chars "wind.flutes.flute.contra-alto"), (.windFlutesFluteContrabass, chars "wind.flutes.flute.contrabass"),
    (.windFlutesFluteDoubleContrabass, chars "wind.flutes.flute.double-contrabass"), (.windFlutesFluteIrish, chars "wind.flutes.flute.irish"),
    (.windFlutesFlutePiccolo, chars "wind.flutes.flute.piccolo"), (.windFlutesFluteSubcontrabass, chars "wind.flutes.flute.subcontrabass"),
    (.windFlutesFujara, chars "wind.flutes.fujara"), (.windFlutesGemshorn, chars "wind.flutes.gemshorn"),
    (.windFlutesHocchiku, chars "wind.flutes.hocchiku"), (.windFlutesHun, chars "wind.flutes.hun"), (.windFlutesKaval, chars "wind.flutes.kaval"),
    (.windFlutesKawala, chars "wind.flutes.kawala"), (.windFlutesKhlui, chars "wind.flutes.khlui"),
    (.windFlutesKnotweed, chars "wind.flutes.knotweed"), (.windFlutesKoncovkaAlto, chars "wind.flutes.koncovka.alto"),
    (.windFlutesKoudi, chars "wind.flutes.koudi"), (.windFlutesNey, chars "wind.flutes.ney"), (.windFlutesNohkan, chars "wind.flutes.nohkan"),
    (.windFlutesNose, chars "wind.flutes.nose"), (.windFlutesOcarina, chars "wind.flutes.ocarina"),
    (.windFlutesOvertoneTenor, chars "wind.flutes.overtone.tenor"), (.windFlutesPalendag, chars "wind.flutes.palendag"),
    (.windFlutesPanpipes, chars "wind.flutes.panpipes"), (.windFlutesQuena, chars "wind.flutes.quena"),
    (.windFlutesRecorder, chars "wind.flutes.recorder"), (.windFlutesRecorderAlto, chars "wind.flutes.recorder.alto")]

/-- Members, private/mx/core/PlaybackSound.h 737-796. -/
def members12 : List (Core.PlaybackSound × Str) := [
    (.windFlutesRecorderBass, chars "wind.flutes.recorder.bass"), (.windFlutesRecorderContrabass, chars "wind.flutes.recorder.contrabass"),
    (.windFlutesRecorderDescant, chars "wind.flutes.recorder.descant"), (.windFlutesRecorderGarklein, chars "wind.flutes.recorder.garklein"),
    (.windFlutesRecorderGreatBass, chars "wind.flutes.recorder.great-bass"), (.windFlutesRecorderSopranino, chars "wind.flutes.recorder.sopranino"),
    (.windFlutesRecorderSoprano, chars "wind.flutes.recorder.soprano"), (.windFlutesRecorderTenor, chars "wind.flutes.recorder.tenor"),
    (.windFlutesRyuteki, chars "wind.flutes.ryuteki"), (.windFlutesShakuhachi, chars "wind.flutes.shakuhachi"),
    (.windFlutesShepherdsPipe, chars "wind.flutes.shepherds-pipe"), (.windFlutesShinobue, chars "wind.flutes.shinobue"),
    (.windFlutesShvi, chars "wind.flutes.shvi"), (.windFlutesSuling, chars "wind.flutes.suling"), (.windFlutesTarka, chars "wind.flutes.tarka"),
    (.windFlutesTumpong, chars "wind.flutes.tumpong"), (.windFlutesVenu, chars "wind.flutes.venu"), (.windFlutesWhistle, chars "wind.flutes.whistle"),
    (.windFlutesWhistleAlto, chars "wind.flutes.whistle.alto"), (.windFlutesWhistleLowIrish, chars "wind.flutes.whistle.low-irish"),
    (.windFlutesWhistleShiva, chars "wind.flutes.whistle.shiva"), (.windFlutesWhistleSlide, chars "wind.flutes.whistle.slide"),
    (.windFlutesWhistleTin, chars "wind.flutes.whistle.tin"), (.windFlutesWhistleTinBflat, chars "wind.flutes.whistle.tin.bflat"),
    (.windFlutesWhistleTinD, chars "wind.flutes.whistle.tin.d"), (.windFlutesXiao, chars "wind.flutes.xiao"),
    (.windFlutesXun, chars "wind.flutes.xun"), (.windGroup, chars "wind.group"), (.windJug, chars "wind.jug"),
    (.windPipesBagpipes, chars "wind.pipes.bagpipes"), (.windPipesGaida, chars "wind.pipes.gaida"), (.windPipesHighland, chars "wind.pipes.highland"),
    (.windPipesUilleann, chars "wind.pipes.uilleann"), (.windPungi, chars "wind.pungi"), (.windReedAlbogue, chars "wind.reed.albogue"),
    (.windReedAlboka, chars "wind.reed.alboka"), (.windReedAlgaita, chars "wind.reed.algaita"), (.windReedArghul, chars "wind.reed.arghul"),
    (.windReedBassetHorn, chars "wind.reed.basset-horn"), (.windReedBassoon, chars "wind.reed.bassoon"), (.windReedBawu, chars "wind.reed.bawu"),
    (.windReedBifora, chars "wind.reed.bifora"), (.windReedBombarde, chars "wind.reed.bombarde"), (.windReedChalumeau, chars "wind.reed.chalumeau"),
    (.windReedClarinet, chars "wind.reed.clarinet"), (.windReedClarinetA, chars "wind.reed.clarinet.a"),
    (.windReedClarinetAlto, chars "wind.reed.clarinet.alto"), (.windReedClarinetBass, chars "wind.reed.clarinet.bass"),
    (.windReedClarinetBasset, chars "wind.reed.clarinet.basset"), (.windReedClarinetBflat, chars "wind.reed.clarinet.bflat"),
    (.windReedClarinetContraAlto, chars "wind.reed.clarinet.contra-alto"), (.windReedClarinetContrabass, chars "wind.reed.clarinet.contrabass"),
    (.windReedClarinetEflat, chars "wind.reed.clarinet.eflat"), (.windReedClarinetPiccoloAflat, chars "wind.reed.clarinet.piccolo.aflat"),
    (.windReedClarinetteDamour, chars "wind.reed.clarinette-damour"), (.windReedContrabass, chars "wind.reed.contrabass"),
    (.windReedContrabassoon, chars "wind.reed.contrabassoon"), (.windReedCornamuse, chars "wind.reed.cornamuse"),
    (.windReedCromorne, chars "wind.reed.cromorne"), (.windReedCrumhorn, chars "wind.reed.crumhorn")]

/-- Members, private/mx/core/PlaybackSound.h 797-856. -/
def members13 : List (Core.PlaybackSound × Str) := [
    (.windReedCrumhornAlto, chars "wind.reed.crumhorn.alto"), (.windReedCrumhornBass, chars "wind.reed.crumhorn.bass"),
    (.windReedCrumhornGreatBass, chars "wind.reed.crumhorn.great-bass"), (.windReedCrumhornSoprano, chars "wind.reed.crumhorn.soprano"),
    (.windReedCrumhornTenor, chars "wind.reed.crumhorn.tenor"), (.windReedDiple, chars "wind.reed.diple"),
    (.windReedDiplica, chars "wind.reed.diplica"), (.windReedDuduk, chars "wind.reed.duduk"), (.windReedDulcian, chars "wind.reed.dulcian"),
    (.windReedDulzaina, chars "wind.reed.dulzaina"), (.windReedEnglishHorn, chars "wind.reed.english-horn"),
    (.windReedGuanzi, chars "wind.reed.guanzi"), (.windReedHarmonica, chars "wind.reed.harmonica"),
    (.windReedHarmonicaBass, chars "wind.reed.harmonica.bass"), (.windReedHeckelClarina, chars "wind.reed.heckel-clarina"),
    (.windReedHeckelphone, chars "wind.reed.heckelphone"), (.windReedHeckelphonePiccolo, chars "wind.reed.heckelphone.piccolo"),
    (.windReedHeckelphoneClarinet, chars "wind.reed.heckelphone-clarinet"), (.windReedHichiriki, chars "wind.reed.hichiriki"),
    (.windReedHirtenschalmei, chars "wind.reed.hirtenschalmei"), (.windReedHne, chars "wind.reed.hne"),
    (.windReedHornpipe, chars "wind.reed.hornpipe"), (.windReedHouguan, chars "wind.reed.houguan"), (.windReedHulusi, chars "wind.reed.hulusi"),
    (.windReedJogiBaja, chars "wind.reed.jogi-baja"), (.windReedKenBau, chars "wind.reed.ken-bau"),
    (.windReedKhaenMouthOrgan, chars "wind.reed.khaen-mouth-organ"), (.windReedLauneddas, chars "wind.reed.launeddas"),
    (.windReedMaqrunah, chars "wind.reed.maqrunah"), (.windReedMelodica, chars "wind.reed.melodica"), (.windReedMijwiz, chars "wind.reed.mijwiz"),
    (.windReedMizmar, chars "wind.reed.mizmar"), (.windReedNadaswaram, chars "wind.reed.nadaswaram"), (.windReedOboe, chars "wind.reed.oboe"),
    (.windReedOboeBass, chars "wind.reed.oboe.bass"), (.windReedOboePiccolo, chars "wind.reed.oboe.piccolo"),
    (.windReedOboeDaCaccia, chars "wind.reed.oboe-da-caccia"), (.windReedOboeDamore, chars "wind.reed.oboe-damore"),
    (.windReedOctavin, chars "wind.reed.octavin"), (.windReedPi, chars "wind.reed.pi"), (.windReedPibgorn, chars "wind.reed.pibgorn"),
    (.windReedPiri, chars "wind.reed.piri"), (.windReedRackett, chars "wind.reed.rackett"), (.windReedRauschpfeife, chars "wind.reed.rauschpfeife"),
    (.windReedRhaita, chars "wind.reed.rhaita"), (.windReedRothphone, chars "wind.reed.rothphone"),
    (.windReedSarrusaphone, chars "wind.reed.sarrusaphone"), (.windReedSaxonette, chars "wind.reed.saxonette"),
    (.windReedSaxophone, chars "wind.reed.saxophone"), (.windReedSaxophoneAlto, chars "wind.reed.saxophone.alto"),
    (.windReedSaxophoneAulochrome, chars "wind.reed.saxophone.aulochrome"), (.windReedSaxophoneBaritone, chars "wind.reed.saxophone.baritone"),
    (.windReedSaxophoneBass, chars "wind.reed.saxophone.bass"), (.windReedSaxophoneContrabass, chars "wind.reed.saxophone.contrabass"),
    (.windReedSaxophoneMelody, chars "wind.reed.saxophone.melody"), (.windReedSaxophoneMezzoSoprano, chars "wind.reed.saxophone.mezzo-soprano"),
    (.windReedSaxophoneSopranino, chars "wind.reed.saxophone.sopranino"), (.windReedSaxophoneSopranissimo, chars "wind.reed.saxophone.sopranissimo"),
    (.windReedSaxophoneSoprano, chars "wind.reed.saxophone.soprano"), (.windReedSaxophoneSubcontrabass, chars "wind.reed.saxophone.subcontrabass")]

/-- Members, private/mx/core/PlaybackSound.h 857-902. -/
def members14 : List (Core.PlaybackSound × Str) := [
    (.windReedSaxophoneTenor, chars "wind.reed.saxophone.tenor"), (.windReedShawm, chars "wind.reed.shawm"),
    (.windReedShenai, chars "wind.reed.shenai"), (.windReedSheng, chars "wind.reed.sheng"), (.windReedSipsi, chars "wind.reed.sipsi"),
    (.windReedSopila, chars "wind.reed.sopila"), (.windReedSorna, chars "wind.reed.sorna"), (.windReedSralai, chars "wind.reed.sralai"),
    (.windReedSuona, chars "wind.reed.suona"), (.windReedSurnai, chars "wind.reed.surnai"), (.windReedTaepyeongso, chars "wind.reed.taepyeongso"),
    (.windReedTarogato, chars "wind.reed.tarogato"), (.windReedTarogatoAncient, chars "wind.reed.tarogato.ancient"),
    (.windReedTrompetaChina, chars "wind.reed.trompeta-china"), (.windReedTubax, chars "wind.reed.tubax"),
    (.windReedXaphoon, chars "wind.reed.xaphoon"), (.windReedZhaleika, chars "wind.reed.zhaleika"), (.windReedZurla, chars "wind.reed.zurla"),
    (.windReedZurna, chars "wind.reed.zurna"), (.woodAgogoBlock, chars "wood.agogo-block"), (.woodAgungATamlang, chars "wood.agung-a-tamlang"),
    (.woodAhoko, chars "wood.ahoko"), (.woodBones, chars "wood.bones"), (.woodCastanets, chars "wood.castanets"), (.woodClaves, chars "wood.claves"),
    (.woodDrumSticks, chars "wood.drum-sticks"), (.woodGourd, chars "wood.gourd"), (.woodGraniteBlock, chars "wood.granite-block"),
    (.woodGuban, chars "wood.guban"), (.woodGuiro, chars "wood.guiro"), (.woodHyoushigi, chars "wood.hyoushigi"), (.woodIpu, chars "wood.ipu"),
    (.woodJamBlock, chars "wood.jam-block"), (.woodKaekeeke, chars "wood.kaekeeke"), (.woodKagul, chars "wood.kagul"),
    (.woodKalaau, chars "wood.kalaau"), (.woodKashiklar, chars "wood.kashiklar"), (.woodKubing, chars "wood.kubing"),
    (.woodPanClappers, chars "wood.pan-clappers"), (.woodSandBlock, chars "wood.sand-block"), (.woodSlapstick, chars "wood.slapstick"),
    (.woodStirDrum, chars "wood.stir-drum"), (.woodTempleBlock, chars "wood.temple-block"), (.woodTicTocBlock, chars "wood.tic-toc-block"),
    (.woodTonetang, chars "wood.tonetang"), (.woodWoodBlock, chars "wood.wood-block")]

/-- `MX_ENUM_MEMBERS`, private/mx/core/PlaybackSound.h 17-902: the groups in order. -/
def playbackSoundMembers : List (Core.PlaybackSound × Str) :=
  members0 ++ members1 ++ members2 ++ members3 ++ members4 ++ members5 ++ members6 ++ members7 ++ members8 ++ members9 ++ members10 ++ members11 ++ members12 ++ members13 ++ members14

/-- `PlaybackSoundToString`, private/mx/utility/EnumWithString.h 38-47: a switch with a case for each member. -/
def playbackSoundToString (x : Core.PlaybackSound) : Res Str :=
  match mapFind playbackSoundMembers x with
  | some s => .ok s
  | none => .error .throws

/-- `PlaybackSoundFromString`, private/mx/utility/EnumWithString.h 49-60: a chain of comparisons, one for each member; else an exception. -/
def playbackSoundFromString (s : Str) : Res Core.PlaybackSound :=
  match ifChain (playbackSoundMembers.map (fun p => (p.2, p.1))) s with
  | some x => .ok x
  | none => .error .throws

/-- `Converter::instrumentMap`, private/mx/impl/Converter.cpp 423-1311, defaults 1790 and 1796. -/
def instrumentMap : ConvMap Core.PlaybackSound Api.SoundID where
  rows := [
    (.brassAlphorn, .brassAlphorn), (.brassAltoHorn, .brassAltoHorn), (.brassBaritoneHorn, .brassBaritoneHorn), (.brassBugle, .brassBugle),
    (.brassBugleAlto, .brassBugleAlto), (.brassBugleBaritone, .brassBugleBaritone), (.brassBugleContrabass, .brassBugleContrabass),
    (.brassBugleEuphoniumBugle, .brassBugleEuphoniumBugle), (.brassBugleMellophoneBugle, .brassBugleMellophoneBugle),
    (.brassBugleSoprano, .brassBugleSoprano), (.brassCimbasso, .brassCimbasso), (.brassConchShell, .brassConchShell), (.brassCornet, .brassCornet),
    (.brassCornetSoprano, .brassCornetSoprano), (.brassCornett, .brassCornett), (.brassCornettTenor, .brassCornettTenor),
    (.brassCornettino, .brassCornettino), (.brassDidgeridoo, .brassDidgeridoo), (.brassEuphonium, .brassEuphonium), (.brassFiscorn, .brassFiscorn),
    (.brassFlugelhorn, .brassFlugelhorn), (.brassFrenchHorn, .brassFrenchHorn), (.brassGroup, .brassGroup), (.brassGroupSynth, .brassGroupSynth),
    (.brassHelicon, .brassHelicon), (.brassHoragai, .brassHoragai), (.brassKuhlohorn, .brassKuhlohorn), (.brassMellophone, .brassMellophone),
    (.brassNaturalHorn, .brassNaturalHorn), (.brassOphicleide, .brassOphicleide), (.brassPosthorn, .brassPosthorn), (.brassRagDung, .brassRagDung),
    (.brassSackbutt, .brassSackbutt), (.brassSackbuttAlto, .brassSackbuttAlto), (.brassSackbuttBass, .brassSackbuttBass),
    (.brassSackbuttTenor, .brassSackbuttTenor), (.brassSaxhorn, .brassSaxhorn), (.brassSerpent, .brassSerpent), (.brassShofar, .brassShofar),
    (.brassSousaphone, .brassSousaphone), (.brassTrombone, .brassTrombone), (.brassTromboneAlto, .brassTromboneAlto),
    (.brassTromboneBass, .brassTromboneBass), (.brassTromboneContrabass, .brassTromboneContrabass), (.brassTromboneTenor, .brassTromboneTenor),
    (.brassTrumpet, .brassTrumpet), (.brassTrumpetBaroque, .brassTrumpetBaroque), (.brassTrumpetBass, .brassTrumpetBass),
    (.brassTrumpetBflat, .brassTrumpetBflat), (.brassTrumpetC, .brassTrumpetC), (.brassTrumpetD, .brassTrumpetD),
    (.brassTrumpetPiccolo, .brassTrumpetPiccolo), (.brassTrumpetPocket, .brassTrumpetPocket), (.brassTrumpetSlide, .brassTrumpetSlide),
    (.brassTrumpetTenor, .brassTrumpetTenor), (.brassTuba, .brassTuba), (.brassTubaBass, .brassTubaBass),
    (.brassTubaSubcontrabass, .brassTubaSubcontrabass), (.brassViennaHorn, .brassViennaHorn), (.brassVuvuzela, .brassVuvuzela),
    (.brassWagnerTuba, .brassWagnerTuba), (.drumApentemma, .drumApentemma), (.drumAshiko, .drumAshiko), (.drumAtabaque, .drumAtabaque),
    (.drumAtoke, .drumAtoke), (.drumAtsimevu, .drumAtsimevu), (.drumAxatse, .drumAxatse), (.drumBassDrum, .drumBassDrum), (.drumBata, .drumBata),
    (.drumBataItotele, .drumBataItotele), (.drumBataIya, .drumBataIya), (.drumBataOkonkolo, .drumBataOkonkolo), (.drumBendir, .drumBendir),
    (.drumBodhran, .drumBodhran), (.drumBombo, .drumBombo), (.drumBongo, .drumBongo), (.drumBougarabou, .drumBougarabou),
    (.drumBuffaloDrum, .drumBuffaloDrum), (.drumCajon, .drumCajon), (.drumChenda, .drumChenda), (.drumChuDaiko, .drumChuDaiko),
    (.drumConga, .drumConga), (.drumCuica, .drumCuica), (.drumDabakan, .drumDabakan), (.drumDaff, .drumDaff), (.drumDafli, .drumDafli),
    (.drumDaibyosi, .drumDaibyosi), (.drumDamroo, .drumDamroo), (.drumDarabuka, .drumDarabuka), (.drumDef, .drumDef), (.drumDhol, .drumDhol),
    (.drumDholak, .drumDholak), (.drumDjembe, .drumDjembe), (.drumDoira, .drumDoira), (.drumDondo, .drumDondo), (.drumDounDounBa, .drumDounDounBa),
    (.drumDuff, .drumDuff), (.drumDumbek, .drumDumbek), (.drumFontomfrom, .drumFontomfrom), (.drumFrameDrum, .drumFrameDrum),
    (.drumFrameDrumArabian, .drumFrameDrumArabian), (.drumGeduk, .drumGeduk), (.drumGhatam, .drumGhatam), (.drumGome, .drumGome),
    (.drumGroup, .drumGroup), (.drumGroupChinese, .drumGroupChinese), (.drumGroupEwe, .drumGroupEwe), (.drumGroupIndian, .drumGroupIndian),
    (.drumGroupSet, .drumGroupSet), (.drumHandDrum, .drumHandDrum), (.drumHiraDaiko, .drumHiraDaiko), (.drumIbo, .drumIbo),
    (.drumIgihumurizo, .drumIgihumurizo), (.drumInyahura, .drumInyahura), (.drumIshakwe, .drumIshakwe), (.drumJangGu, .drumJangGu),
    (.drumKagan, .drumKagan), (.drumKakko, .drumKakko), (.drumKanjira, .drumKanjira), (.drumKendhang, .drumKendhang),
    (.drumKendhangAgeng, .drumKendhangAgeng), (.drumKendhangCiblon, .drumKendhangCiblon), (.drumKenkeni, .drumKenkeni), (.drumKhol, .drumKhol),
    (.drumKickDrum, .drumKickDrum), (.drumKidi, .drumKidi), (.drumKoDaiko, .drumKoDaiko), (.drumKpanlogo, .drumKpanlogo), (.drumKudum, .drumKudum),
    (.drumLambeg, .drumLambeg), (.drumLionDrum, .drumLionDrum), (.drumLogDrum, .drumLogDrum), (.drumLogDrumAfrican, .drumLogDrumAfrican),
    (.drumLogDrumNative, .drumLogDrumNative), (.drumLogDrumNigerian, .drumLogDrumNigerian), (.drumMadal, .drumMadal), (.drumMaddale, .drumMaddale),
    (.drumMridangam, .drumMridangam), (.drumNaal, .drumNaal), (.drumNagadoDaiko, .drumNagadoDaiko), (.drumNagara, .drumNagara),
    (.drumNaqara, .drumNaqara), (.drumODaiko, .drumODaiko), (.drumOkawa, .drumOkawa), (.drumOkedoDaiko, .drumOkedoDaiko),
    (.drumPahuHula, .drumPahuHula), (.drumPakhawaj, .drumPakhawaj), (.drumPandeiro, .drumPandeiro), (.drumPandero, .drumPandero),
    (.drumPowwow, .drumPowwow), (.drumPueblo, .drumPueblo), (.drumRepinique, .drumRepinique), (.drumRiq, .drumRiq), (.drumRototom, .drumRototom),
    (.drumSabar, .drumSabar), (.drumSakara, .drumSakara), (.drumSampho, .drumSampho), (.drumSangban, .drumSangban),
    (.drumShimeDaiko, .drumShimeDaiko), (.drumSlitDrum, .drumSlitDrum), (.drumSlitDrumKrin, .drumSlitDrumKrin), (.drumSnareDrum, .drumSnareDrum),
    (.drumSnareDrumElectric, .drumSnareDrumElectric), (.drumSogo, .drumSogo), (.drumSurdo, .drumSurdo), (.drumTabla, .drumTabla),
    (.drumTablaBayan, .drumTablaBayan), (.drumTablaDayan, .drumTablaDayan), (.drumTaiko, .drumTaiko), (.drumTalking, .drumTalking),
    (.drumTama, .drumTama), (.drumTamborita, .drumTamborita), (.drumTambourine, .drumTambourine), (.drumTamte, .drumTamte),
    (.drumTangku, .drumTangku), (.drumTanTan, .drumTanTan), (.drumTaphon, .drumTaphon), (.drumTar, .drumTar), (.drumTasha, .drumTasha),
    (.drumTenorDrum, .drumTenorDrum), (.drumTeponaxtli, .drumTeponaxtli), (.drumThavil, .drumThavil), (.drumTheBox, .drumTheBox),
    (.drumTimbale, .drumTimbale), (.drumTimpani, .drumTimpani), (.drumTinaja, .drumTinaja), (.drumToere, .drumToere), (.drumTombak, .drumTombak),
    (.drumTomTom, .drumTomTom), (.drumTomTomSynth, .drumTomTomSynth), (.drumTsuzumi, .drumTsuzumi), (.drumTumbak, .drumTumbak),
    (.drumUchiwaDaiko, .drumUchiwaDaiko), (.drumUdaku, .drumUdaku), (.drumUdu, .drumUdu), (.drumZarb, .drumZarb),
    (.effectAeolianHarp, .effectAeolianHarp), (.effectAirHorn, .effectAirHorn), (.effectApplause, .effectApplause),
    (.effectBassStringSlap, .effectBassStringSlap), (.effectBird, .effectBird), (.effectBirdNightingale, .effectBirdNightingale),
    (.effectBirdTweet, .effectBirdTweet), (.effectBreath, .effectBreath), (.effectBubble, .effectBubble), (.effectBullroarer, .effectBullroarer),
    (.effectBurst, .effectBurst), (.effectCar, .effectCar), (.effectCarCrash, .effectCarCrash), (.effectCarEngine, .effectCarEngine),
    (.effectCarPass, .effectCarPass), (.effectCarStop, .effectCarStop), (.effectCrickets, .effectCrickets), (.effectDog, .effectDog),
    (.effectDoorCreak, .effectDoorCreak), (.effectDoorSlam, .effectDoorSlam), (.effectExplosion, .effectExplosion),
    (.effectFluteKeyClick, .effectFluteKeyClick), (.effectFootsteps, .effectFootsteps), (.effectFrogs, .effectFrogs),
    (.effectGuitarCutting, .effectGuitarCutting), (.effectGuitarFret, .effectGuitarFret), (.effectGunshot, .effectGunshot),
    (.effectHandClap, .effectHandClap), (.effectHeartbeat, .effectHeartbeat), (.effectHelicopter, .effectHelicopter), (.effectHighQ, .effectHighQ),
    (.effectHorseGallop, .effectHorseGallop), (.effectJetPlane, .effectJetPlane), (.effectLaserGun, .effectLaserGun), (.effectLaugh, .effectLaugh),
    (.effectLionsRoar, .effectLionsRoar), (.effectMachineGun, .effectMachineGun), (.effectMarchingMachine, .effectMarchingMachine),
    (.effectMetronomeBell, .effectMetronomeBell), (.effectMetronomeClick, .effectMetronomeClick), (.effectPat, .effectPat),
    (.effectPunch, .effectPunch), (.effectRain, .effectRain), (.effectScratch, .effectScratch), (.effectScream, .effectScream),
    (.effectSeashore, .effectSeashore), (.effectSiren, .effectSiren), (.effectSlap, .effectSlap), (.effectSnap, .effectSnap),
    (.effectStamp, .effectStamp), (.effectStarship, .effectStarship), (.effectStream, .effectStream), (.effectTelephoneRing, .effectTelephoneRing),
    (.effectThunder, .effectThunder), (.effectTrain, .effectTrain), (.effectTrashCan, .effectTrashCan), (.effectWhip, .effectWhip),
    (.effectWhistle, .effectWhistle), (.effectWhistleMouthSiren, .effectWhistleMouthSiren), (.effectWhistlePolice, .effectWhistlePolice),
    (.effectWhistleSlide, .effectWhistleSlide), (.effectWhistleTrain, .effectWhistleTrain), (.effectWind, .effectWind),
    (.keyboardAccordion, .keyboardAccordion), (.keyboardBandoneon, .keyboardBandoneon), (.keyboardCelesta, .keyboardCelesta),
    (.keyboardClavichord, .keyboardClavichord), (.keyboardClavichordSynth, .keyboardClavichordSynth), (.keyboardConcertina, .keyboardConcertina),
    (.keyboardFortepiano, .keyboardFortepiano), (.keyboardHarmonium, .keyboardHarmonium), (.keyboardHarpsichord, .keyboardHarpsichord),
    (.keyboardOndesMartenot, .keyboardOndesMartenot), (.keyboardOrgan, .keyboardOrgan), (.keyboardOrganDrawbar, .keyboardOrganDrawbar),
    (.keyboardOrganPercussive, .keyboardOrganPercussive), (.keyboardOrganPipe, .keyboardOrganPipe), (.keyboardOrganReed, .keyboardOrganReed),
    (.keyboardOrganRotary, .keyboardOrganRotary), (.keyboardPiano, .keyboardPiano), (.keyboardPianoElectric, .keyboardPianoElectric),
    (.keyboardPianoGrand, .keyboardPianoGrand), (.keyboardPianoHonkyTonk, .keyboardPianoHonkyTonk), (.keyboardPianoPrepared, .keyboardPianoPrepared),
    (.keyboardPianoToy, .keyboardPianoToy), (.keyboardPianoUpright, .keyboardPianoUpright), (.keyboardVirginal, .keyboardVirginal),
    (.metalAdodo, .metalAdodo), (.metalAnvil, .metalAnvil), (.metalBabendil, .metalBabendil), (.metalBellsAgogo, .metalBellsAgogo),
    (.metalBellsAlmglocken, .metalBellsAlmglocken), (.metalBellsBellPlate, .metalBellsBellPlate), (.metalBellsBellTree, .metalBellsBellTree),
    (.metalBellsCarillon, .metalBellsCarillon), (.metalBellsChimes, .metalBellsChimes), (.metalBellsChimta, .metalBellsChimta),
    (.metalBellsChippli, .metalBellsChippli), (.metalBellsChurch, .metalBellsChurch), (.metalBellsCowbell, .metalBellsCowbell),
    (.metalBellsDawuro, .metalBellsDawuro), (.metalBellsGankokwe, .metalBellsGankokwe), (.metalBellsGhungroo, .metalBellsGhungroo),
    (.metalBellsHatheli, .metalBellsHatheli), (.metalBellsJingleBell, .metalBellsJingleBell), (.metalBellsKhartal, .metalBellsKhartal),
    (.metalBellsMarkTree, .metalBellsMarkTree), (.metalBellsSistrum, .metalBellsSistrum), (.metalBellsSleighBells, .metalBellsSleighBells),
    (.metalBellsTemple, .metalBellsTemple), (.metalBellsTibetan, .metalBellsTibetan), (.metalBellsTinklebell, .metalBellsTinklebell),
    (.metalBellsTrychel, .metalBellsTrychel), (.metalBellsWindChimes, .metalBellsWindChimes), (.metalBellsZills, .metalBellsZills),
    (.metalBerimbau, .metalBerimbau), (.metalBrakeDrums, .metalBrakeDrums), (.metalCrotales, .metalCrotales), (.metalCymbalBo, .metalCymbalBo),
    (.metalCymbalCengCeng, .metalCymbalCengCeng), (.metalCymbalChabara, .metalCymbalChabara), (.metalCymbalChinese, .metalCymbalChinese),
    (.metalCymbalChing, .metalCymbalChing), (.metalCymbalClash, .metalCymbalClash), (.metalCymbalCrash, .metalCymbalCrash),
    (.metalCymbalFinger, .metalCymbalFinger), (.metalCymbalHand, .metalCymbalHand), (.metalCymbalKesi, .metalCymbalKesi),
    (.metalCymbalManjeera, .metalCymbalManjeera), (.metalCymbalReverse, .metalCymbalReverse), (.metalCymbalRide, .metalCymbalRide),
    (.metalCymbalSizzle, .metalCymbalSizzle), (.metalCymbalSplash, .metalCymbalSplash), (.metalCymbalSuspended, .metalCymbalSuspended),
    (.metalCymbalTebyoshi, .metalCymbalTebyoshi), (.metalCymbalTibetan, .metalCymbalTibetan), (.metalCymbalTingsha, .metalCymbalTingsha),
    (.metalFlexatone, .metalFlexatone), (.metalGong, .metalGong), (.metalGongAgeng, .metalGongAgeng), (.metalGongAgung, .metalGongAgung),
    (.metalGongChanchiki, .metalGongChanchiki), (.metalGongChinese, .metalGongChinese), (.metalGongGandingan, .metalGongGandingan),
    (.metalGongKempul, .metalGongKempul), (.metalGongKempyang, .metalGongKempyang), (.metalGongKetuk, .metalGongKetuk),
    (.metalGongKkwenggwari, .metalGongKkwenggwari), (.metalGongLuo, .metalGongLuo), (.metalGongSinging, .metalGongSinging),
    (.metalGongThai, .metalGongThai), (.metalGuira, .metalGuira), (.metalHang, .metalHang), (.metalHiHat, .metalHiHat),
    (.metalJawHarp, .metalJawHarp), (.metalKengong, .metalKengong), (.metalMurchang, .metalMurchang), (.metalMusicalSaw, .metalMusicalSaw),
    (.metalSingingBowl, .metalSingingBowl), (.metalSpoons, .metalSpoons), (.metalSteelDrums, .metalSteelDrums), (.metalTamtam, .metalTamtam),
    (.metalThundersheet, .metalThundersheet), (.metalTriangle, .metalTriangle), (.metalWashboard, .metalWashboard),
    (.pitchedPercussionAngklung, .pitchedPercussionAngklung), (.pitchedPercussionBalafon, .pitchedPercussionBalafon),
    (.pitchedPercussionBellLyre, .pitchedPercussionBellLyre), (.pitchedPercussionBells, .pitchedPercussionBells),
    (.pitchedPercussionBianqing, .pitchedPercussionBianqing), (.pitchedPercussionBianzhong, .pitchedPercussionBianzhong),
    (.pitchedPercussionBonang, .pitchedPercussionBonang), (.pitchedPercussionCimbalom, .pitchedPercussionCimbalom),
    (.pitchedPercussionCrystalGlasses, .pitchedPercussionCrystalGlasses), (.pitchedPercussionDanTamThapLuc, .pitchedPercussionDanTamThapLuc),
    (.pitchedPercussionFangxiang, .pitchedPercussionFangxiang), (.pitchedPercussionGandinganAKayo, .pitchedPercussionGandinganAKayo),
    (.pitchedPercussionGangsa, .pitchedPercussionGangsa), (.pitchedPercussionGender, .pitchedPercussionGender),
    (.pitchedPercussionGiying, .pitchedPercussionGiying), (.pitchedPercussionGlassHarmonica, .pitchedPercussionGlassHarmonica),
    (.pitchedPercussionGlockenspiel, .pitchedPercussionGlockenspiel), (.pitchedPercussionGlockenspielAlto, .pitchedPercussionGlockenspielAlto),
    (.pitchedPercussionGlockenspielSoprano, .pitchedPercussionGlockenspielSoprano), (.pitchedPercussionGyil, .pitchedPercussionGyil),
    (.pitchedPercussionHammerDulcimer, .pitchedPercussionHammerDulcimer), (.pitchedPercussionHandbells, .pitchedPercussionHandbells),
    (.pitchedPercussionKalimba, .pitchedPercussionKalimba), (.pitchedPercussionKantil, .pitchedPercussionKantil),
    (.pitchedPercussionKhim, .pitchedPercussionKhim), (.pitchedPercussionKulintang, .pitchedPercussionKulintang),
    (.pitchedPercussionKulintangAKayo, .pitchedPercussionKulintangAKayo), (.pitchedPercussionKulintangATiniok, .pitchedPercussionKulintangATiniok),
    (.pitchedPercussionLikembe, .pitchedPercussionLikembe), (.pitchedPercussionLuntang, .pitchedPercussionLuntang),
    (.pitchedPercussionMarimba, .pitchedPercussionMarimba), (.pitchedPercussionMarimbaBass, .pitchedPercussionMarimbaBass),
    (.pitchedPercussionMbira, .pitchedPercussionMbira), (.pitchedPercussionMbiraArray, .pitchedPercussionMbiraArray),
    (.pitchedPercussionMetallophone, .pitchedPercussionMetallophone), (.pitchedPercussionMetallophoneAlto, .pitchedPercussionMetallophoneAlto),
    (.pitchedPercussionMetallophoneBass, .pitchedPercussionMetallophoneBass),
    (.pitchedPercussionMetallophoneSoprano, .pitchedPercussionMetallophoneSoprano), (.pitchedPercussionMusicBox, .pitchedPercussionMusicBox),
    (.pitchedPercussionPelogPanerus, .pitchedPercussionPelogPanerus), (.pitchedPercussionPemade, .pitchedPercussionPemade),
    (.pitchedPercussionPenyacah, .pitchedPercussionPenyacah), (.pitchedPercussionRanatEk, .pitchedPercussionRanatEk),
    (.pitchedPercussionRanatEkLek, .pitchedPercussionRanatEkLek), (.pitchedPercussionRanatThum, .pitchedPercussionRanatThum),
    (.pitchedPercussionRanatThumLek, .pitchedPercussionRanatThumLek), (.pitchedPercussionReyong, .pitchedPercussionReyong),
    (.pitchedPercussionSanza, .pitchedPercussionSanza), (.pitchedPercussionSaronBarung, .pitchedPercussionSaronBarung),
    (.pitchedPercussionSaronDemong, .pitchedPercussionSaronDemong), (.pitchedPercussionSaronPanerus, .pitchedPercussionSaronPanerus),
    (.pitchedPercussionSlendroPanerus, .pitchedPercussionSlendroPanerus), (.pitchedPercussionSlentem, .pitchedPercussionSlentem),
    (.pitchedPercussionTsymbaly, .pitchedPercussionTsymbaly), (.pitchedPercussionTubes, .pitchedPercussionTubes),
    (.pitchedPercussionTubularBells, .pitchedPercussionTubularBells), (.pitchedPercussionVibraphone, .pitchedPercussionVibraphone),
    (.pitchedPercussionXylophone, .pitchedPercussionXylophone), (.pitchedPercussionXylophoneAlto, .pitchedPercussionXylophoneAlto),
    (.pitchedPercussionXylophoneBass, .pitchedPercussionXylophoneBass), (.pitchedPercussionXylophoneSoprano, .pitchedPercussionXylophoneSoprano),
    (.pitchedPercussionXylorimba, .pitchedPercussionXylorimba), (.pitchedPercussionYangqin, .pitchedPercussionYangqin),
    (.pluckArchlute, .pluckArchlute), (.pluckAutoharp, .pluckAutoharp), (.pluckBaglama, .pluckBaglama), (.pluckBajo, .pluckBajo),
    (.pluckBalalaika, .pluckBalalaika), (.pluckBalalaikaAlto, .pluckBalalaikaAlto), (.pluckBalalaikaBass, .pluckBalalaikaBass),
    (.pluckBalalaikaContrabass, .pluckBalalaikaContrabass), (.pluckBalalaikaPiccolo, .pluckBalalaikaPiccolo),
    (.pluckBalalaikaPrima, .pluckBalalaikaPrima), (.pluckBalalaikaSecunda, .pluckBalalaikaSecunda), (.pluckBandola, .pluckBandola),
    (.pluckBandura, .pluckBandura), (.pluckBandurria, .pluckBandurria), (.pluckBanjo, .pluckBanjo), (.pluckBanjoTenor, .pluckBanjoTenor),
    (.pluckBanjolele, .pluckBanjolele), (.pluckBarbat, .pluckBarbat), (.pluckBass, .pluckBass), (.pluckBassAcoustic, .pluckBassAcoustic),
    (.pluckBassBolon, .pluckBassBolon), (.pluckBassElectric, .pluckBassElectric), (.pluckBassFretless, .pluckBassFretless),
    (.pluckBassGuitarron, .pluckBassGuitarron), (.pluckBassSynth, .pluckBassSynth), (.pluckBassSynthLead, .pluckBassSynthLead),
    (.pluckBassWashtub, .pluckBassWashtub), (.pluckBassWhamola, .pluckBassWhamola), (.pluckBegena, .pluckBegena), (.pluckBiwa, .pluckBiwa),
    (.pluckBordonua, .pluckBordonua), (.pluckBouzouki, .pluckBouzouki), (.pluckBouzoukiIrish, .pluckBouzoukiIrish),
    (.pluckCelticHarp, .pluckCelticHarp), (.pluckCharango, .pluckCharango), (.pluckChitarraBattente, .pluckChitarraBattente),
    (.pluckCithara, .pluckCithara), (.pluckCittern, .pluckCittern), (.pluckCuatro, .pluckCuatro), (.pluckDanBau, .pluckDanBau),
    (.pluckDanNguyet, .pluckDanNguyet), (.pluckDanTranh, .pluckDanTranh), (.pluckDanTyBa, .pluckDanTyBa), (.pluckDiddleyBow, .pluckDiddleyBow),
    (.pluckDomra, .pluckDomra), (.pluckDomu, .pluckDomu), (.pluckDulcimer, .pluckDulcimer), (.pluckDutar, .pluckDutar),
    (.pluckDuxianqin, .pluckDuxianqin), (.pluckEktara, .pluckEktara), (.pluckGeomungo, .pluckGeomungo), (.pluckGottuvadhyam, .pluckGottuvadhyam),
    (.pluckGuitar, .pluckGuitar), (.pluckGuitarAcoustic, .pluckGuitarAcoustic), (.pluckGuitarElectric, .pluckGuitarElectric),
    (.pluckGuitarNylonString, .pluckGuitarNylonString), (.pluckGuitarPedalSteel, .pluckGuitarPedalSteel),
    (.pluckGuitarPortuguese, .pluckGuitarPortuguese), (.pluckGuitarRequinto, .pluckGuitarRequinto), (.pluckGuitarResonator, .pluckGuitarResonator),
    (.pluckGuitarSteelString, .pluckGuitarSteelString), (.pluckGuitjo, .pluckGuitjo), (.pluckGuitjoDoubleNeck, .pluckGuitjoDoubleNeck),
    (.pluckGuqin, .pluckGuqin), (.pluckGuzheng, .pluckGuzheng), (.pluckGuzhengChoazhou, .pluckGuzhengChoazhou), (.pluckHarp, .pluckHarp),
    (.pluckHarpGuitar, .pluckHarpGuitar), (.pluckHuapanguera, .pluckHuapanguera), (.pluckJaranaHuasteca, .pluckJaranaHuasteca),
    (.pluckJaranaJarocha, .pluckJaranaJarocha), (.pluckJaranaJarochaMosquito, .pluckJaranaJarochaMosquito),
    (.pluckJaranaJarochaPrimera, .pluckJaranaJarochaPrimera), (.pluckJaranaJarochaSegunda, .pluckJaranaJarochaSegunda),
    (.pluckJaranaJarochaTercera, .pluckJaranaJarochaTercera), (.pluckKabosy, .pluckKabosy), (.pluckKantele, .pluckKantele),
    (.pluckKanun, .pluckKanun), (.pluckKayagum, .pluckKayagum), (.pluckKobza, .pluckKobza), (.pluckKomuz, .pluckKomuz), (.pluckKora, .pluckKora),
    (.pluckKoto, .pluckKoto), (.pluckKutiyapi, .pluckKutiyapi), (.pluckLangeleik, .pluckLangeleik), (.pluckLaud, .pluckLaud),
    (.pluckLute, .pluckLute), (.pluckLyre, .pluckLyre), (.pluckMandobass, .pluckMandobass), (.pluckMandocello, .pluckMandocello),
    (.pluckMandola, .pluckMandola), (.pluckMandolin, .pluckMandolin), (.pluckMandolinOctave, .pluckMandolinOctave), (.pluckMandora, .pluckMandora),
    (.pluckMandore, .pluckMandore), (.pluckMarovany, .pluckMarovany), (.pluckMusicalBow, .pluckMusicalBow), (.pluckNgoni, .pluckNgoni),
    (.pluckOud, .pluckOud), (.pluckPipa, .pluckPipa), (.pluckPsaltery, .pluckPsaltery), (.pluckRuan, .pluckRuan), (.pluckSallaneh, .pluckSallaneh),
    (.pluckSanshin, .pluckSanshin), (.pluckSantoor, .pluckSantoor), (.pluckSanxian, .pluckSanxian), (.pluckSarod, .pluckSarod),
    (.pluckSaung, .pluckSaung), (.pluckSaz, .pluckSaz), (.pluckSe, .pluckSe), (.pluckSetar, .pluckSetar), (.pluckShamisen, .pluckShamisen),
    (.pluckSitar, .pluckSitar), (.pluckSynth, .pluckSynth), (.pluckSynthCharang, .pluckSynthCharang), (.pluckSynthChiff, .pluckSynthChiff),
    (.pluckSynthStick, .pluckSynthStick), (.pluckTambura, .pluckTambura), (.pluckTamburaBulgarian, .pluckTamburaBulgarian),
    (.pluckTamburaFemale, .pluckTamburaFemale), (.pluckTamburaMale, .pluckTamburaMale), (.pluckTar, .pluckTar), (.pluckTheorbo, .pluckTheorbo),
    (.pluckTimple, .pluckTimple), (.pluckTiple, .pluckTiple), (.pluckTres, .pluckTres), (.pluckUkulele, .pluckUkulele),
    (.pluckUkuleleTenor, .pluckUkuleleTenor), (.pluckValiha, .pluckValiha), (.pluckVeena, .pluckVeena), (.pluckVeenaMohan, .pluckVeenaMohan),
    (.pluckVeenaRudra, .pluckVeenaRudra), (.pluckVeenaVichitra, .pluckVeenaVichitra), (.pluckVihuela, .pluckVihuela),
    (.pluckVihuelaMexican, .pluckVihuelaMexican), (.pluckXalam, .pluckXalam), (.pluckYueqin, .pluckYueqin), (.pluckZither, .pluckZither),
    (.pluckZitherOvertone, .pluckZitherOvertone), (.rattleAfoxe, .rattleAfoxe), (.rattleBirds, .rattleBirds), (.rattleCabasa, .rattleCabasa),
    (.rattleCaxixi, .rattleCaxixi), (.rattleCog, .rattleCog), (.rattleGanza, .rattleGanza), (.rattleHosho, .rattleHosho),
    (.rattleJawbone, .rattleJawbone), (.rattleKayamba, .rattleKayamba), (.rattleKpokoKpoko, .rattleKpokoKpoko),
    (.rattleLavaStones, .rattleLavaStones), (.rattleMaraca, .rattleMaraca), (.rattleRainStick, .rattleRainStick), (.rattleRatchet, .rattleRatchet),
    (.rattleRattle, .rattleRattle), (.rattleShaker, .rattleShaker), (.rattleShakerEgg, .rattleShakerEgg), (.rattleShekere, .rattleShekere),
    (.rattleSistre, .rattleSistre), (.rattleTelevi, .rattleTelevi), (.rattleVibraslap, .rattleVibraslap), (.rattleWasembe, .rattleWasembe),
    (.stringsAjaeng, .stringsAjaeng), (.stringsArpeggione, .stringsArpeggione), (.stringsBaryton, .stringsBaryton), (.stringsCello, .stringsCello),
    (.stringsCelloPiccolo, .stringsCelloPiccolo), (.stringsContrabass, .stringsContrabass), (.stringsCrwth, .stringsCrwth),
    (.stringsDanGao, .stringsDanGao), (.stringsDihu, .stringsDihu), (.stringsErhu, .stringsErhu), (.stringsErxian, .stringsErxian),
    (.stringsEsraj, .stringsEsraj), (.stringsFiddle, .stringsFiddle), (.stringsFiddleHardanger, .stringsFiddleHardanger),
    (.stringsGadulka, .stringsGadulka), (.stringsGaohu, .stringsGaohu), (.stringsGehu, .stringsGehu), (.stringsGroup, .stringsGroup),
    (.stringsGroupSynth, .stringsGroupSynth), (.stringsHaegeum, .stringsHaegeum), (.stringsHurdyGurdy, .stringsHurdyGurdy),
    (.stringsIgil, .stringsIgil), (.stringsKamancha, .stringsKamancha), (.stringsKokyu, .stringsKokyu), (.stringsLaruan, .stringsLaruan),
    (.stringsLeiqin, .stringsLeiqin), (.stringsLirone, .stringsLirone), (.stringsLyraByzantine, .stringsLyraByzantine),
    (.stringsLyraCretan, .stringsLyraCretan), (.stringsMorinKhuur, .stringsMorinKhuur), (.stringsNyckelharpa, .stringsNyckelharpa),
    (.stringsOctobass, .stringsOctobass), (.stringsRebab, .stringsRebab), (.stringsRebec, .stringsRebec), (.stringsSarangi, .stringsSarangi),
    (.stringsStrohViolin, .stringsStrohViolin), (.stringsTrombaMarina, .stringsTrombaMarina), (.stringsVielle, .stringsVielle),
    (.stringsViol, .stringsViol), (.stringsViolAlto, .stringsViolAlto), (.stringsViolBass, .stringsViolBass), (.stringsViolTenor, .stringsViolTenor),
    (.stringsViolTreble, .stringsViolTreble), (.stringsViolViolone, .stringsViolViolone), (.stringsViola, .stringsViola),
    (.stringsViolaDamore, .stringsViolaDamore), (.stringsViolin, .stringsViolin), (.stringsViolonoPiccolo, .stringsViolonoPiccolo),
    (.stringsViolotta, .stringsViolotta), (.stringsYayliTanbur, .stringsYayliTanbur), (.stringsYazheng, .stringsYazheng),
    (.stringsZhonghu, .stringsZhonghu), (.synthEffects, .synthEffects), (.synthEffectsAtmosphere, .synthEffectsAtmosphere),
    (.synthEffectsBrightness, .synthEffectsBrightness), (.synthEffectsCrystal, .synthEffectsCrystal), (.synthEffectsEchoes, .synthEffectsEchoes),
    (.synthEffectsGoblins, .synthEffectsGoblins), (.synthEffectsRain, .synthEffectsRain), (.synthEffectsSciFi, .synthEffectsSciFi),
    (.synthEffectsSoundtrack, .synthEffectsSoundtrack), (.synthGroup, .synthGroup), (.synthGroupFifths, .synthGroupFifths),
    (.synthGroupOrchestra, .synthGroupOrchestra), (.synthPad, .synthPad), (.synthPadBowed, .synthPadBowed), (.synthPadChoir, .synthPadChoir),
    (.synthPadHalo, .synthPadHalo), (.synthPadMetallic, .synthPadMetallic), (.synthPadPolysynth, .synthPadPolysynth),
    (.synthPadSweep, .synthPadSweep), (.synthPadWarm, .synthPadWarm), (.synthTheremin, .synthTheremin), (.synthToneSawtooth, .synthToneSawtooth),
    (.synthToneSine, .synthToneSine), (.synthToneSquare, .synthToneSquare), (.voiceAa, .voiceAa), (.voiceAlto, .voiceAlto), (.voiceAw, .voiceAw),
    (.voiceBaritone, .voiceBaritone), (.voiceBass, .voiceBass), (.voiceChild, .voiceChild), (.voiceCountertenor, .voiceCountertenor),
    (.voiceDoo, .voiceDoo), (.voiceEe, .voiceEe), (.voiceFemale, .voiceFemale), (.voiceKazoo, .voiceKazoo), (.voiceMale, .voiceMale),
    (.voiceMezzoSoprano, .voiceMezzoSoprano), (.voiceMm, .voiceMm), (.voiceOo, .voiceOo), (.voicePercussion, .voicePercussion),
    (.voicePercussionBeatbox, .voicePercussionBeatbox), (.voiceSoprano, .voiceSoprano), (.voiceSynth, .voiceSynth), (.voiceTalkBox, .voiceTalkBox),
    (.voiceTenor, .voiceTenor), (.voiceVocals, .voiceVocals), (.windFlutesBansuri, .windFlutesBansuri),
    (.windFlutesBlownBottle, .windFlutesBlownBottle), (.windFlutesCalliope, .windFlutesCalliope), (.windFlutesDanso, .windFlutesDanso),
    (.windFlutesDiZi, .windFlutesDiZi), (.windFlutesDvojnice, .windFlutesDvojnice), (.windFlutesFife, .windFlutesFife),
    (.windFlutesFlageolet, .windFlutesFlageolet), (.windFlutesFlute, .windFlutesFlute), (.windFlutesFluteAlto, .windFlutesFluteAlto),
    (.windFlutesFluteBass, .windFlutesFluteBass), (.windFlutesFluteContraAlto, .windFlutesFluteContraAlto),
    (.windFlutesFluteContrabass, .windFlutesFluteContrabass), (.windFlutesFluteDoubleContrabass, .windFlutesFluteDoubleContrabass),
    (.windFlutesFluteIrish, .windFlutesFluteIrish), (.windFlutesFlutePiccolo, .windFlutesFlutePiccolo),
    (.windFlutesFluteSubcontrabass, .windFlutesFluteSubcontrabass), (.windFlutesFujara, .windFlutesFujara),
    (.windFlutesGemshorn, .windFlutesGemshorn), (.windFlutesHocchiku, .windFlutesHocchiku), (.windFlutesHun, .windFlutesHun),
    (.windFlutesKaval, .windFlutesKaval), (.windFlutesKawala, .windFlutesKawala), (.windFlutesKhlui, .windFlutesKhlui),
    (.windFlutesKnotweed, .windFlutesKnotweed), (.windFlutesKoncovkaAlto, .windFlutesKoncovkaAlto), (.windFlutesKoudi, .windFlutesKoudi),
    (.windFlutesNey, .windFlutesNey), (.windFlutesNohkan, .windFlutesNohkan), (.windFlutesNose, .windFlutesNose),
    (.windFlutesOcarina, .windFlutesOcarina), (.windFlutesOvertoneTenor, .windFlutesOvertoneTenor), (.windFlutesPalendag, .windFlutesPalendag),
    (.windFlutesPanpipes, .windFlutesPanpipes), (.windFlutesQuena, .windFlutesQuena), (.windFlutesRecorder, .windFlutesRecorder),
    (.windFlutesRecorderAlto, .windFlutesRecorderAlto), (.windFlutesRecorderBass, .windFlutesRecorderBass),
    (.windFlutesRecorderContrabass, .windFlutesRecorderContrabass), (.windFlutesRecorderDescant, .windFlutesRecorderDescant),
    (.windFlutesRecorderGarklein, .windFlutesRecorderGarklein), (.windFlutesRecorderGreatBass, .windFlutesRecorderGreatBass),
    (.windFlutesRecorderSopranino, .windFlutesRecorderSopranino), (.windFlutesRecorderSoprano, .windFlutesRecorderSoprano),
    (.windFlutesRecorderTenor, .windFlutesRecorderTenor), (.windFlutesRyuteki, .windFlutesRyuteki), (.windFlutesShakuhachi, .windFlutesShakuhachi),
    (.windFlutesShepherdsPipe, .windFlutesShepherdsPipe), (.windFlutesShinobue, .windFlutesShinobue), (.windFlutesShvi, .windFlutesShvi),
    (.windFlutesSuling, .windFlutesSuling), (.windFlutesTarka, .windFlutesTarka), (.windFlutesTumpong, .windFlutesTumpong),
    (.windFlutesVenu, .windFlutesVenu), (.windFlutesWhistle, .windFlutesWhistle), (.windFlutesWhistleAlto, .windFlutesWhistleAlto),
    (.windFlutesWhistleLowIrish, .windFlutesWhistleLowIrish), (.windFlutesWhistleShiva, .windFlutesWhistleShiva),
    (.windFlutesWhistleSlide, .windFlutesWhistleSlide), (.windFlutesWhistleTin, .windFlutesWhistleTin),
    (.windFlutesWhistleTinBflat, .windFlutesWhistleTinBflat), (.windFlutesWhistleTinD, .windFlutesWhistleTinD), (.windFlutesXiao, .windFlutesXiao),
    (.windFlutesXun, .windFlutesXun), (.windGroup, .windGroup), (.windJug, .windJug), (.windPipesBagpipes, .windPipesBagpipes),
    (.windPipesGaida, .windPipesGaida), (.windPipesHighland, .windPipesHighland), (.windPipesUilleann, .windPipesUilleann), (.windPungi, .windPungi),
    (.windReedAlbogue, .windReedAlbogue), (.windReedAlboka, .windReedAlboka), (.windReedAlgaita, .windReedAlgaita),
    (.windReedArghul, .windReedArghul), (.windReedBassetHorn, .windReedBassetHorn), (.windReedBassoon, .windReedBassoon),
    (.windReedBawu, .windReedBawu), (.windReedBifora, .windReedBifora), (.windReedBombarde, .windReedBombarde),
    (.windReedChalumeau, .windReedChalumeau), (.windReedClarinet, .windReedClarinet), (.windReedClarinetA, .windReedClarinetA),
    (.windReedClarinetAlto, .windReedClarinetAlto), (.windReedClarinetBass, .windReedClarinetBass),
    (.windReedClarinetBasset, .windReedClarinetBasset), (.windReedClarinetBflat, .windReedClarinetBflat),
    (.windReedClarinetContraAlto, .windReedClarinetContraAlto), (.windReedClarinetContrabass, .windReedClarinetContrabass),
    (.windReedClarinetEflat, .windReedClarinetEflat), (.windReedClarinetPiccoloAflat, .windReedClarinetPiccoloAflat),
    (.windReedClarinetteDamour, .windReedClarinetteDamour), (.windReedContrabass, .windReedContrabass),
    (.windReedContrabassoon, .windReedContrabassoon), (.windReedCornamuse, .windReedCornamuse), (.windReedCromorne, .windReedCromorne),
    (.windReedCrumhorn, .windReedCrumhorn), (.windReedCrumhornAlto, .windReedCrumhornAlto), (.windReedCrumhornBass, .windReedCrumhornBass),
    (.windReedCrumhornGreatBass, .windReedCrumhornGreatBass), (.windReedCrumhornSoprano, .windReedCrumhornSoprano),
    (.windReedCrumhornTenor, .windReedCrumhornTenor), (.windReedDiple, .windReedDiple), (.windReedDiplica, .windReedDiplica),
    (.windReedDuduk, .windReedDuduk), (.windReedDulcian, .windReedDulcian), (.windReedDulzaina, .windReedDulzaina),
    (.windReedEnglishHorn, .windReedEnglishHorn), (.windReedGuanzi, .windReedGuanzi), (.windReedHarmonica, .windReedHarmonica),
    (.windReedHarmonicaBass, .windReedHarmonicaBass), (.windReedHeckelClarina, .windReedHeckelClarina), (.windReedHeckelphone, .windReedHeckelphone),
    (.windReedHeckelphonePiccolo, .windReedHeckelphonePiccolo), (.windReedHeckelphoneClarinet, .windReedHeckelphoneClarinet),
    (.windReedHichiriki, .windReedHichiriki), (.windReedHirtenschalmei, .windReedHirtenschalmei), (.windReedHne, .windReedHne),
    (.windReedHornpipe, .windReedHornpipe), (.windReedHouguan, .windReedHouguan), (.windReedHulusi, .windReedHulusi),
    (.windReedJogiBaja, .windReedJogiBaja), (.windReedKenBau, .windReedKenBau), (.windReedKhaenMouthOrgan, .windReedKhaenMouthOrgan),
    (.windReedLauneddas, .windReedLauneddas), (.windReedMaqrunah, .windReedMaqrunah), (.windReedMelodica, .windReedMelodica),
    (.windReedMijwiz, .windReedMijwiz), (.windReedMizmar, .windReedMizmar), (.windReedNadaswaram, .windReedNadaswaram),
    (.windReedOboe, .windReedOboe), (.windReedOboeBass, .windReedOboeBass), (.windReedOboePiccolo, .windReedOboePiccolo),
    (.windReedOboeDaCaccia, .windReedOboeDaCaccia), (.windReedOboeDamore, .windReedOboeDamore), (.windReedOctavin, .windReedOctavin),
    (.windReedPi, .windReedPi), (.windReedPibgorn, .windReedPibgorn), (.windReedPiri, .windReedPiri), (.windReedRackett, .windReedRackett),
    (.windReedRauschpfeife, .windReedRauschpfeife), (.windReedRhaita, .windReedRhaita), (.windReedRothphone, .windReedRothphone),
    (.windReedSarrusaphone, .windReedSarrusaphone), (.windReedSaxonette, .windReedSaxonette), (.windReedSaxophone, .windReedSaxophone),
    (.windReedSaxophoneAlto, .windReedSaxophoneAlto), (.windReedSaxophoneAulochrome, .windReedSaxophoneAulochrome),
    (.windReedSaxophoneBaritone, .windReedSaxophoneBaritone), (.windReedSaxophoneBass, .windReedSaxophoneBass),
    (.windReedSaxophoneContrabass, .windReedSaxophoneContrabass), (.windReedSaxophoneMelody, .windReedSaxophoneMelody),
    (.windReedSaxophoneMezzoSoprano, .windReedSaxophoneMezzoSoprano), (.windReedSaxophoneSopranino, .windReedSaxophoneSopranino),
    (.windReedSaxophoneSopranissimo, .windReedSaxophoneSopranissimo), (.windReedSaxophoneSoprano, .windReedSaxophoneSoprano),
    (.windReedSaxophoneSubcontrabass, .windReedSaxophoneSubcontrabass), (.windReedSaxophoneTenor, .windReedSaxophoneTenor),
    (.windReedShawm, .windReedShawm), (.windReedShenai, .windReedShenai), (.windReedSheng, .windReedSheng), (.windReedSipsi, .windReedSipsi),
    (.windReedSopila, .windReedSopila), (.windReedSorna, .windReedSorna), (.windReedSralai, .windReedSralai), (.windReedSuona, .windReedSuona),
    (.windReedSurnai, .windReedSurnai), (.windReedTaepyeongso, .windReedTaepyeongso), (.windReedTarogato, .windReedTarogato),
    (.windReedTarogatoAncient, .windReedTarogatoAncient), (.windReedTrompetaChina, .windReedTrompetaChina), (.windReedTubax, .windReedTubax),
    (.windReedXaphoon, .windReedXaphoon), (.windReedZhaleika, .windReedZhaleika), (.windReedZurla, .windReedZurla), (.windReedZurna, .windReedZurna),
    (.woodAgogoBlock, .woodAgogoBlock), (.woodAgungATamlang, .woodAgungATamlang), (.woodAhoko, .woodAhoko), (.woodBones, .woodBones),
    (.woodCastanets, .woodCastanets), (.woodClaves, .woodClaves), (.woodDrumSticks, .woodDrumSticks), (.woodGourd, .woodGourd),
    (.woodGraniteBlock, .woodGraniteBlock), (.woodGuban, .woodGuban), (.woodGuiro, .woodGuiro), (.woodHyoushigi, .woodHyoushigi),
    (.woodIpu, .woodIpu), (.woodJamBlock, .woodJamBlock), (.woodKaekeeke, .woodKaekeeke), (.woodKagul, .woodKagul), (.woodKalaau, .woodKalaau),
    (.woodKashiklar, .woodKashiklar), (.woodKubing, .woodKubing), (.woodPanClappers, .woodPanClappers), (.woodSandBlock, .woodSandBlock),
    (.woodSlapstick, .woodSlapstick), (.woodStirDrum, .woodStirDrum), (.woodTempleBlock, .woodTempleBlock), (.woodTicTocBlock, .woodTicTocBlock),
    (.woodTonetang, .woodTonetang), (.woodWoodBlock, .woodWoodBlock)]
  defaultApi := .unspecified
  defaultCore := .keyboardPiano
  order := [
    .brassAlphorn, .brassAltoHorn, .brassBaritoneHorn, .brassBugle, .brassBugleAlto, .brassBugleBaritone, .brassBugleContrabass,
    .brassBugleEuphoniumBugle, .brassBugleMellophoneBugle, .brassBugleSoprano, .brassCimbasso, .brassConchShell, .brassCornet, .brassCornetSoprano,
    .brassCornett, .brassCornettTenor, .brassCornettino, .brassDidgeridoo, .brassEuphonium, .brassFiscorn, .brassFlugelhorn, .brassFrenchHorn,
    .brassGroup, .brassGroupSynth, .brassHelicon, .brassHoragai, .brassKuhlohorn, .brassMellophone, .brassNaturalHorn, .brassOphicleide,
    .brassPosthorn, .brassRagDung, .brassSackbutt, .brassSackbuttAlto, .brassSackbuttBass, .brassSackbuttTenor, .brassSaxhorn, .brassSerpent,
    .brassShofar, .brassSousaphone, .brassTrombone, .brassTromboneAlto, .brassTromboneBass, .brassTromboneContrabass, .brassTromboneTenor,
    .brassTrumpet, .brassTrumpetBaroque, .brassTrumpetBass, .brassTrumpetBflat, .brassTrumpetC, .brassTrumpetD, .brassTrumpetPiccolo,
    .brassTrumpetPocket, .brassTrumpetSlide, .brassTrumpetTenor, .brassTuba, .brassTubaBass, .brassTubaSubcontrabass, .brassViennaHorn,
    .brassVuvuzela, .brassWagnerTuba, .drumApentemma, .drumAshiko, .drumAtabaque, .drumAtoke, .drumAtsimevu, .drumAxatse, .drumBassDrum, .drumBata,
    .drumBataItotele, .drumBataIya, .drumBataOkonkolo, .drumBendir, .drumBodhran, .drumBombo, .drumBongo, .drumBougarabou, .drumBuffaloDrum,
    .drumCajon, .drumChenda, .drumChuDaiko, .drumConga, .drumCuica, .drumDabakan, .drumDaff, .drumDafli, .drumDaibyosi, .drumDamroo, .drumDarabuka,
    .drumDef, .drumDhol, .drumDholak, .drumDjembe, .drumDoira, .drumDondo, .drumDounDounBa, .drumDuff, .drumDumbek, .drumFontomfrom, .drumFrameDrum,
    .drumFrameDrumArabian, .drumGeduk, .drumGhatam, .drumGome, .drumGroup, .drumGroupChinese, .drumGroupEwe, .drumGroupIndian, .drumGroupSet,
    .drumHandDrum, .drumHiraDaiko, .drumIbo, .drumIgihumurizo, .drumInyahura, .drumIshakwe, .drumJangGu, .drumKagan, .drumKakko, .drumKanjira,
    .drumKendhang, .drumKendhangAgeng, .drumKendhangCiblon, .drumKenkeni, .drumKhol, .drumKickDrum, .drumKidi, .drumKoDaiko, .drumKpanlogo,
    .drumKudum, .drumLambeg, .drumLionDrum, .drumLogDrum, .drumLogDrumAfrican, .drumLogDrumNative, .drumLogDrumNigerian, .drumMadal, .drumMaddale,
    .drumMridangam, .drumNaal, .drumNagadoDaiko, .drumNagara, .drumNaqara, .drumODaiko, .drumOkawa, .drumOkedoDaiko, .drumPahuHula, .drumPakhawaj,
    .drumPandeiro, .drumPandero, .drumPowwow, .drumPueblo, .drumRepinique, .drumRiq, .drumRototom, .drumSabar, .drumSakara, .drumSampho, .drumSangban,
    .drumShimeDaiko, .drumSlitDrum, .drumSlitDrumKrin, .drumSnareDrum, .drumSnareDrumElectric, .drumSogo, .drumSurdo, .drumTabla, .drumTablaBayan,
    .drumTablaDayan, .drumTaiko, .drumTalking, .drumTama, .drumTamborita, .drumTambourine, .drumTamte, .drumTangku, .drumTanTan, .drumTaphon,
    .drumTar, .drumTasha, .drumTenorDrum, .drumTeponaxtli, .drumThavil, .drumTheBox, .drumTimbale, .drumTimpani, .drumTinaja, .drumToere, .drumTombak,
    .drumTomTom, .drumTomTomSynth, .drumTsuzumi, .drumTumbak, .drumUchiwaDaiko, .drumUdaku, .drumUdu, .drumZarb, .effectAeolianHarp, .effectAirHorn,
    .effectApplause, .effectBassStringSlap, .effectBird, .effectBirdNightingale, .effectBirdTweet, .effectBreath, .effectBubble, .effectBullroarer,
    .effectBurst, .effectCar, .effectCarCrash, .effectCarEngine, .effectCarPass, .effectCarStop, .effectCrickets, .effectDog, .effectDoorCreak,
    .effectDoorSlam, .effectExplosion, .effectFluteKeyClick, .effectFootsteps, .effectFrogs, .effectGuitarCutting, .effectGuitarFret, .effectGunshot,
    .effectHandClap, .effectHeartbeat, .effectHelicopter, .effectHighQ, .effectHorseGallop, .effectJetPlane, .effectLaserGun, .effectLaugh,
    .effectLionsRoar, .effectMachineGun, .effectMarchingMachine, .effectMetronomeBell, .effectMetronomeClick, .effectPat, .effectPunch, .effectRain,
    .effectScratch, .effectScream, .effectSeashore, .effectSiren, .effectSlap, .effectSnap, .effectStamp, .effectStarship, .effectStream,
    .effectTelephoneRing, .effectThunder, .effectTrain, .effectTrashCan, .effectWhip, .effectWhistle, .effectWhistleMouthSiren, .effectWhistlePolice,
    .effectWhistleSlide, .effectWhistleTrain, .effectWind, .keyboardAccordion, .keyboardBandoneon, .keyboardCelesta, .keyboardClavichord,
    .keyboardClavichordSynth, .keyboardConcertina, .keyboardFortepiano, .keyboardHarmonium, .keyboardHarpsichord, .keyboardOndesMartenot,
    .keyboardOrgan, .keyboardOrganDrawbar, .keyboardOrganPercussive, .keyboardOrganPipe, .keyboardOrganReed, .keyboardOrganRotary, .keyboardPiano,
    .keyboardPianoElectric, .keyboardPianoGrand, .keyboardPianoHonkyTonk, .keyboardPianoPrepared, .keyboardPianoToy, .keyboardPianoUpright,
    .keyboardVirginal, .metalAdodo, .metalAnvil, .metalBabendil, .metalBellsAgogo, .metalBellsAlmglocken, .metalBellsBellPlate, .metalBellsBellTree,
    .metalBellsCarillon, .metalBellsChimes, .metalBellsChimta, .metalBellsChippli, .metalBellsChurch, .metalBellsCowbell, .metalBellsDawuro,
    .metalBellsGankokwe, .metalBellsGhungroo, .metalBellsHatheli, .metalBellsJingleBell, .metalBellsKhartal, .metalBellsMarkTree, .metalBellsSistrum,
    .metalBellsSleighBells, .metalBellsTemple, .metalBellsTibetan, .metalBellsTinklebell, .metalBellsTrychel, .metalBellsWindChimes, .metalBellsZills,
    .metalBerimbau, .metalBrakeDrums, .metalCrotales, .metalCymbalBo, .metalCymbalCengCeng, .metalCymbalChabara, .metalCymbalChinese,
    .metalCymbalChing, .metalCymbalClash, .metalCymbalCrash, .metalCymbalFinger, .metalCymbalHand, .metalCymbalKesi, .metalCymbalManjeera,
    .metalCymbalReverse, .metalCymbalRide, .metalCymbalSizzle, .metalCymbalSplash, .metalCymbalSuspended, .metalCymbalTebyoshi, .metalCymbalTibetan,
    .metalCymbalTingsha, .metalFlexatone, .metalGong, .metalGongAgeng, .metalGongAgung, .metalGongChanchiki, .metalGongChinese, .metalGongGandingan,
    .metalGongKempul, .metalGongKempyang, .metalGongKetuk, .metalGongKkwenggwari, .metalGongLuo, .metalGongSinging, .metalGongThai, .metalGuira,
    .metalHang, .metalHiHat, .metalJawHarp, .metalKengong, .metalMurchang, .metalMusicalSaw, .metalSingingBowl, .metalSpoons, .metalSteelDrums,
    .metalTamtam, .metalThundersheet, .metalTriangle, .metalWashboard, .pitchedPercussionAngklung, .pitchedPercussionBalafon,
    .pitchedPercussionBellLyre, .pitchedPercussionBells, .pitchedPercussionBianqing, .pitchedPercussionBianzhong, .pitchedPercussionBonang,
    .pitchedPercussionCimbalom, .pitchedPercussionCrystalGlasses, .pitchedPercussionDanTamThapLuc, .pitchedPercussionFangxiang,
    .pitchedPercussionGandinganAKayo, .pitchedPercussionGangsa, .pitchedPercussionGender, .pitchedPercussionGiying, .pitchedPercussionGlassHarmonica,
    .pitchedPercussionGlockenspiel, .pitchedPercussionGlockenspielAlto, .pitchedPercussionGlockenspielSoprano, .pitchedPercussionGyil,
    .pitchedPercussionHammerDulcimer, .pitchedPercussionHandbells, .pitchedPercussionKalimba, .pitchedPercussionKantil, .pitchedPercussionKhim,
    .pitchedPercussionKulintang, .pitchedPercussionKulintangAKayo, .pitchedPercussionKulintangATiniok, .pitchedPercussionLikembe,
    .pitchedPercussionLuntang, .pitchedPercussionMarimba, .pitchedPercussionMarimbaBass, .pitchedPercussionMbira, .pitchedPercussionMbiraArray,
    .pitchedPercussionMetallophone, .pitchedPercussionMetallophoneAlto, .pitchedPercussionMetallophoneBass, .pitchedPercussionMetallophoneSoprano,
    .pitchedPercussionMusicBox, .pitchedPercussionPelogPanerus, .pitchedPercussionPemade, .pitchedPercussionPenyacah, .pitchedPercussionRanatEk,
    .pitchedPercussionRanatEkLek, .pitchedPercussionRanatThum, .pitchedPercussionRanatThumLek, .pitchedPercussionReyong, .pitchedPercussionSanza,
    .pitchedPercussionSaronBarung, .pitchedPercussionSaronDemong, .pitchedPercussionSaronPanerus, .pitchedPercussionSlendroPanerus,
    .pitchedPercussionSlentem, .pitchedPercussionTsymbaly, .pitchedPercussionTubes, .pitchedPercussionTubularBells, .pitchedPercussionVibraphone,
    .pitchedPercussionXylophone, .pitchedPercussionXylophoneAlto, .pitchedPercussionXylophoneBass, .pitchedPercussionXylophoneSoprano,
    .pitchedPercussionXylorimba, .pitchedPercussionYangqin, .pluckArchlute, .pluckAutoharp, .pluckBaglama, .pluckBajo, .pluckBalalaika,
    .pluckBalalaikaAlto, .pluckBalalaikaBass, .pluckBalalaikaContrabass, .pluckBalalaikaPiccolo, .pluckBalalaikaPrima, .pluckBalalaikaSecunda,
    .pluckBandola, .pluckBandura, .pluckBandurria, .pluckBanjo, .pluckBanjoTenor, .pluckBanjolele, .pluckBarbat, .pluckBass, .pluckBassAcoustic,
    .pluckBassBolon, .pluckBassElectric, .pluckBassFretless, .pluckBassGuitarron, .pluckBassSynth, .pluckBassSynthLead, .pluckBassWashtub,
    .pluckBassWhamola, .pluckBegena, .pluckBiwa, .pluckBordonua, .pluckBouzouki, .pluckBouzoukiIrish, .pluckCelticHarp, .pluckCharango,
    .pluckChitarraBattente, .pluckCithara, .pluckCittern, .pluckCuatro, .pluckDanBau, .pluckDanNguyet, .pluckDanTranh, .pluckDanTyBa,
    .pluckDiddleyBow, .pluckDomra, .pluckDomu, .pluckDulcimer, .pluckDutar, .pluckDuxianqin, .pluckEktara, .pluckGeomungo, .pluckGottuvadhyam,
    .pluckGuitar, .pluckGuitarAcoustic, .pluckGuitarElectric, .pluckGuitarNylonString, .pluckGuitarPedalSteel, .pluckGuitarPortuguese,
    .pluckGuitarRequinto, .pluckGuitarResonator, .pluckGuitarSteelString, .pluckGuitjo, .pluckGuitjoDoubleNeck, .pluckGuqin, .pluckGuzheng,
    .pluckGuzhengChoazhou, .pluckHarp, .pluckHarpGuitar, .pluckHuapanguera, .pluckJaranaHuasteca, .pluckJaranaJarocha, .pluckJaranaJarochaMosquito,
    .pluckJaranaJarochaPrimera, .pluckJaranaJarochaSegunda, .pluckJaranaJarochaTercera, .pluckKabosy, .pluckKantele, .pluckKanun, .pluckKayagum,
    .pluckKobza, .pluckKomuz, .pluckKora, .pluckKoto, .pluckKutiyapi, .pluckLangeleik, .pluckLaud, .pluckLute, .pluckLyre, .pluckMandobass,
    .pluckMandocello, .pluckMandola, .pluckMandolin, .pluckMandolinOctave, .pluckMandora, .pluckMandore, .pluckMarovany, .pluckMusicalBow,
    .pluckNgoni, .pluckOud, .pluckPipa, .pluckPsaltery, .pluckRuan, .pluckSallaneh, .pluckSanshin, .pluckSantoor, .pluckSanxian, .pluckSarod,
    .pluckSaung, .pluckSaz, .pluckSe, .pluckSetar, .pluckShamisen, .pluckSitar, .pluckSynth, .pluckSynthCharang, .pluckSynthChiff, .pluckSynthStick,
    .pluckTambura, .pluckTamburaBulgarian, .pluckTamburaFemale, .pluckTamburaMale, .pluckTar, .pluckTheorbo, .pluckTimple, .pluckTiple, .pluckTres,
    .pluckUkulele, .pluckUkuleleTenor, .pluckValiha, .pluckVeena, .pluckVeenaMohan, .pluckVeenaRudra, .pluckVeenaVichitra, .pluckVihuela,
    .pluckVihuelaMexican, .pluckXalam, .pluckYueqin, .pluckZither, .pluckZitherOvertone, .rattleAfoxe, .rattleBirds, .rattleCabasa, .rattleCaxixi,
    .rattleCog, .rattleGanza, .rattleHosho, .rattleJawbone, .rattleKayamba, .rattleKpokoKpoko, .rattleLavaStones, .rattleMaraca, .rattleRainStick,
    .rattleRatchet, .rattleRattle, .rattleShaker, .rattleShakerEgg, .rattleShekere, .rattleSistre, .rattleTelevi, .rattleVibraslap, .rattleWasembe,
    .stringsAjaeng, .stringsArpeggione, .stringsBaryton, .stringsCello, .stringsCelloPiccolo, .stringsContrabass, .stringsCrwth, .stringsDanGao,
    .stringsDihu, .stringsErhu, .stringsErxian, .stringsEsraj, .stringsFiddle, .stringsFiddleHardanger, .stringsGadulka, .stringsGaohu, .stringsGehu,
    .stringsGroup, .stringsGroupSynth, .stringsHaegeum, .stringsHurdyGurdy, .stringsIgil, .stringsKamancha, .stringsKokyu, .stringsLaruan,
    .stringsLeiqin, .stringsLirone, .stringsLyraByzantine, .stringsLyraCretan, .stringsMorinKhuur, .stringsNyckelharpa, .stringsOctobass,
    .stringsRebab, .stringsRebec, .stringsSarangi, .stringsStrohViolin, .stringsTrombaMarina, .stringsVielle, .stringsViol, .stringsViolAlto,
    .stringsViolBass, .stringsViolTenor, .stringsViolTreble, .stringsViolViolone, .stringsViola, .stringsViolaDamore, .stringsViolin,
    .stringsViolonoPiccolo, .stringsViolotta, .stringsYayliTanbur, .stringsYazheng, .stringsZhonghu, .synthEffects, .synthEffectsAtmosphere,
    .synthEffectsBrightness, .synthEffectsCrystal, .synthEffectsEchoes, .synthEffectsGoblins, .synthEffectsRain, .synthEffectsSciFi,
    .synthEffectsSoundtrack, .synthGroup, .synthGroupFifths, .synthGroupOrchestra, .synthPad, .synthPadBowed, .synthPadChoir, .synthPadHalo,
    .synthPadMetallic, .synthPadPolysynth, .synthPadSweep, .synthPadWarm, .synthTheremin, .synthToneSawtooth, .synthToneSine, .synthToneSquare,
    .voiceAa, .voiceAlto, .voiceAw, .voiceBaritone, .voiceBass, .voiceChild, .voiceCountertenor, .voiceDoo, .voiceEe, .voiceFemale, .voiceKazoo,
    .voiceMale, .voiceMezzoSoprano, .voiceMm, .voiceOo, .voicePercussion, .voicePercussionBeatbox, .voiceSoprano, .voiceSynth, .voiceTalkBox,
    .voiceTenor, .voiceVocals, .windFlutesBansuri, .windFlutesBlownBottle, .windFlutesCalliope, .windFlutesDanso, .windFlutesDiZi,
    .windFlutesDvojnice, .windFlutesFife, .windFlutesFlageolet, .windFlutesFlute, .windFlutesFluteAlto, .windFlutesFluteBass,
    .windFlutesFluteContraAlto, .windFlutesFluteContrabass, .windFlutesFluteDoubleContrabass, .windFlutesFluteIrish, .windFlutesFlutePiccolo,
    .windFlutesFluteSubcontrabass, .windFlutesFujara, .windFlutesGemshorn, .windFlutesHocchiku, .windFlutesHun, .windFlutesKaval, .windFlutesKawala,
    .windFlutesKhlui, .windFlutesKnotweed, .windFlutesKoncovkaAlto, .windFlutesKoudi, .windFlutesNey, .windFlutesNohkan, .windFlutesNose,
    .windFlutesOcarina, .windFlutesOvertoneTenor, .windFlutesPalendag, .windFlutesPanpipes, .windFlutesQuena, .windFlutesRecorder,
    .windFlutesRecorderAlto, .windFlutesRecorderBass, .windFlutesRecorderContrabass, .windFlutesRecorderDescant, .windFlutesRecorderGarklein,
    .windFlutesRecorderGreatBass, .windFlutesRecorderSopranino, .windFlutesRecorderSoprano, .windFlutesRecorderTenor, .windFlutesRyuteki,
    .windFlutesShakuhachi, .windFlutesShepherdsPipe, .windFlutesShinobue, .windFlutesShvi, .windFlutesSuling, .windFlutesTarka, .windFlutesTumpong,
    .windFlutesVenu, .windFlutesWhistle, .windFlutesWhistleAlto, .windFlutesWhistleLowIrish, .windFlutesWhistleShiva, .windFlutesWhistleSlide,
    .windFlutesWhistleTin, .windFlutesWhistleTinBflat, .windFlutesWhistleTinD, .windFlutesXiao, .windFlutesXun, .windGroup, .windJug,
    .windPipesBagpipes, .windPipesGaida, .windPipesHighland, .windPipesUilleann, .windPungi, .windReedAlbogue, .windReedAlboka, .windReedAlgaita,
    .windReedArghul, .windReedBassetHorn, .windReedBassoon, .windReedBawu, .windReedBifora, .windReedBombarde, .windReedChalumeau, .windReedClarinet,
    .windReedClarinetA, .windReedClarinetAlto, .windReedClarinetBass, .windReedClarinetBasset, .windReedClarinetBflat, .windReedClarinetContraAlto,
    .windReedClarinetContrabass, .windReedClarinetEflat, .windReedClarinetPiccoloAflat, .windReedClarinetteDamour, .windReedContrabass,
    .windReedContrabassoon, .windReedCornamuse, .windReedCromorne, .windReedCrumhorn, .windReedCrumhornAlto, .windReedCrumhornBass,
    .windReedCrumhornGreatBass, .windReedCrumhornSoprano, .windReedCrumhornTenor, .windReedDiple, .windReedDiplica, .windReedDuduk, .windReedDulcian,
    .windReedDulzaina, .windReedEnglishHorn, .windReedGuanzi, .windReedHarmonica, .windReedHarmonicaBass, .windReedHeckelClarina,
    .windReedHeckelphone, .windReedHeckelphonePiccolo, .windReedHeckelphoneClarinet, .windReedHichiriki, .windReedHirtenschalmei, .windReedHne,
    .windReedHornpipe, .windReedHouguan, .windReedHulusi, .windReedJogiBaja, .windReedKenBau, .windReedKhaenMouthOrgan, .windReedLauneddas,
    .windReedMaqrunah, .windReedMelodica, .windReedMijwiz, .windReedMizmar, .windReedNadaswaram, .windReedOboe, .windReedOboeBass,
    .windReedOboePiccolo, .windReedOboeDaCaccia, .windReedOboeDamore, .windReedOctavin, .windReedPi, .windReedPibgorn, .windReedPiri,
    .windReedRackett, .windReedRauschpfeife, .windReedRhaita, .windReedRothphone, .windReedSarrusaphone, .windReedSaxonette, .windReedSaxophone,
    .windReedSaxophoneAlto, .windReedSaxophoneAulochrome, .windReedSaxophoneBaritone, .windReedSaxophoneBass, .windReedSaxophoneContrabass,
    .windReedSaxophoneMelody, .windReedSaxophoneMezzoSoprano, .windReedSaxophoneSopranino, .windReedSaxophoneSopranissimo, .windReedSaxophoneSoprano,
    .windReedSaxophoneSubcontrabass, .windReedSaxophoneTenor, .windReedShawm, .windReedShenai, .windReedSheng, .windReedSipsi, .windReedSopila,
    .windReedSorna, .windReedSralai, .windReedSuona, .windReedSurnai, .windReedTaepyeongso, .windReedTarogato, .windReedTarogatoAncient,
    .windReedTrompetaChina, .windReedTubax, .windReedXaphoon, .windReedZhaleika, .windReedZurla, .windReedZurna, .woodAgogoBlock, .woodAgungATamlang,
    .woodAhoko, .woodBones, .woodCastanets, .woodClaves, .woodDrumSticks, .woodGourd, .woodGraniteBlock, .woodGuban, .woodGuiro, .woodHyoushigi,
    .woodIpu, .woodJamBlock, .woodKaekeeke, .woodKagul, .woodKalaau, .woodKashiklar, .woodKubing, .woodPanClappers, .woodSandBlock, .woodSlapstick,
    .woodStirDrum, .woodTempleBlock, .woodTicTocBlock, .woodTonetang, .woodWoodBlock]

/-- `SoundIDToString`, private/mx/api/SoundID.cpp 13-26. -/
def soundIDToString (x : Api.SoundID) : Res Str :=
  if x = .unspecified then .ok (chars "unspecified")
  else if x = .errorBadString then .ok (chars "error.bad.string")
  else playbackSoundToString (instrumentMap.toCore x)

/-- `SoundIDFromString`, private/mx/api/SoundID.cpp 29-45: every exception becomes `errorBadString`. -/
def soundIDFromString (s : Str) : Api.SoundID :=
  match playbackSoundFromString s with
  | .ok p => instrumentMap.toApi p
  | .error _ => .errorBadString

end Mx
