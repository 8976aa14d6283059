{"835897": null, "1231": null, "674835817691569": [["835897", "2", "68956115520221"], ["1231", "2", "104244327553254"]], "203279892443917995271553621": [["674835817691569", "2", "188684732053507132343261780"]], "65731": null, "591973387": [["65731", "2", "182166532"]], "91314262838299": [["591973387", "2", "21778215185153"]], "50791017540450015071456350284045037169936855765408748581": [["203279892443917995271553621", "2", "10522302696844141833704654411382603439451047063430090773"], ["91314262838299", "2", "14932937865205459923345687700484942729103748242283129636"]], "115792089237316195423570985008687907853073762908499243225378155805079068850323": [["50791017540450015071456350284045037169936855765408748581", "2", "95942782845218168071121580154439858459303856030010190829138617425420981635801"]]}