{"359": null, "113": null, "1947217": [["359", "2", "1047506"], ["113", "2", "464550"]], "902089": null, "17565630363131": [["1947217", "2", "17365487221108"], ["902089", "2", "133168282058"]], "217319": null, "1861": null, "66326628077": [["217319", "2", "12481434901"], ["1861", "2", "40410636978"]], "260862815097120313262827914162129492639311": [["17565630363131", "2", "4494067899069234335342840398882879775629"], ["66326628077", "2", "109057837468879902502751419702356974208337"]], "70390085352083305199547718019018437840920882647164081035322601458352298396601": [["260862815097120313262827914162129492639311", "2", "39585179798880746203555743323571199667568456810309233095247725320295213046260"]]}